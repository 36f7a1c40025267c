import Verif.Model.Base
import Mathlib.Tactic.Common
import Mathlib.Tactic.Ring
import Mathlib.Tactic.Linarith
import Mathlib.Tactic.IntervalCases
/-! Helper lemmas about outcomes, slices and bytes. -/
namespace MBus

namespace Res
variable {ε ε' α β : Type}

@[simp] theorem bind_ok (a : α) (f : α → Res ε β) : (Res.ok a >>= f) = f a := rfl
@[simp] theorem bind_err (e : ε) (f : α → Res ε β) : (Res.err e >>= f) = Res.err e := rfl
@[simp] theorem bind_panic (f : α → Res ε β) : ((Res.panic : Res ε α) >>= f) = Res.panic := rfl
@[simp] theorem pure_eq (a : α) : (pure a : Res ε α) = Res.ok a := rfl
@[simp] theorem ofOption_some (e : ε) (a : α) : Res.ofOption e (some a) = Res.ok a := rfl
@[simp] theorem ofOption_none (e : ε) : Res.ofOption e (none : Option α) = Res.err e := rfl
@[simp] theorem mapErr_ok (f : ε → ε') (a : α) : Res.mapErr f (Res.ok a) = Res.ok a := rfl
@[simp] theorem mapErr_err (f : ε → ε') (e : ε) :
    Res.mapErr f (Res.err e : Res ε α) = Res.err (f e) := rfl
@[simp] theorem mapErr_panic (f : ε → ε') : Res.mapErr f (Res.panic : Res ε α) = Res.panic := rfl
@[simp] theorem toOption_ok (a : α) : (Res.ok a : Res ε α).toOption = some a := rfl
@[simp] theorem toOption_err (e : ε) : (Res.err e : Res ε α).toOption = none := rfl

theorem bind_eq_ok {x : Res ε α} {f : α → Res ε β} {b : β} :
    (x >>= f) = Res.ok b ↔ ∃ a, x = Res.ok a ∧ f a = Res.ok b := by
  cases x <;> simp

theorem bind_eq_panic {x : Res ε α} {f : α → Res ε β} :
    (x >>= f) = Res.panic ↔ x = Res.panic ∨ ∃ a, x = Res.ok a ∧ f a = Res.panic := by
  cases x <;> simp

theorem bind_eq_err {x : Res ε α} {f : α → Res ε β} {e : ε} :
    (x >>= f) = Res.err e ↔ x = Res.err e ∨ ∃ a, x = Res.ok a ∧ f a = Res.err e := by
  cases x <;> simp

theorem ofOption_eq_ok {e : ε} {o : Option α} {a : α} :
    Res.ofOption e o = Res.ok a ↔ o = some a := by
  cases o <;> simp

@[simp] theorem ofOption_ne_panic {e : ε} {o : Option α} : Res.ofOption e o ≠ Res.panic := by
  cases o <;> simp

instance : LawfulMonad (Res ε) := LawfulMonad.mk' _
  (id_map := by intro α x; cases x <;> rfl)
  (pure_bind := by intros; rfl)
  (bind_assoc := by intro _ _ _ x _ _; cases x <;> rfl)

end Res

theorem forall_uint8 {p : UInt8 → Prop} : (∀ b, p b) ↔ ∀ n : Fin 256, p (UInt8.ofNat n.val) := by
  constructor
  · intro h n; exact h _
  · intro h b
    have := h ⟨b.toNat, b.toNat_lt⟩
    simpa using this

/-- Quantification over all 256 bytes is decidable by checking all of them. -/
instance decForallUInt8 {p : UInt8 → Prop} [DecidablePred p] : Decidable (∀ b, p b) :=
  decidable_of_iff _ forall_uint8.symm

theorem forall_uint16 {p : UInt16 → Prop} :
    (∀ b, p b) ↔ ∀ n : Fin 65536, p (UInt16.ofNat n.val) := by
  constructor
  · intro h n; exact h _
  · intro h b
    have := h ⟨b.toNat, b.toNat_lt⟩
    simpa using this

@[simp] theorem sliceFrom?_length {α : Type} (l : List α) (n : Nat) (h : n ≤ l.length) :
    sliceFrom? l n = some (l.drop n) := by simp [sliceFrom?, h]

@[simp] theorem sliceTo?_le {α : Type} (l : List α) (n : Nat) (h : n ≤ l.length) :
    sliceTo? l n = some (l.take n) := by simp [sliceTo?, h]

/-- A list with at least two elements ends in two elements. -/
theorem exists_append_two {α : Type} (l : List α) (h : 2 ≤ l.length) :
    ∃ body x y, l = body ++ [x, y] := by
  refine ⟨l.take (l.length - 2), l[l.length - 2], l[l.length - 1], ?_⟩
  apply List.ext_getElem
  · simp; omega
  · intro i h1 h2
    rw [List.getElem_append]
    split
    · simp
    · rename_i hi
      simp at hi
      have : i = l.length - 2 ∨ i = l.length - 1 := by omega
      rcases this with rfl | rfl
      · simp
      · have : l.length - 1 - (l.length - 2) = 1 := by omega
        simp [this]

theorem u16le_toNat (l m : UInt8) : (u16le l m).toNat = l.toNat + 256 * m.toNat := by
  have := l.toNat_lt
  have := m.toNat_lt
  simp only [u16le]
  simp
  rw [Nat.or_comm, Nat.shiftLeft_eq, Nat.mod_eq_of_lt (by omega), Nat.mul_comm,
    ← Nat.two_pow_add_eq_or_of_lt (i := 8) (by omega)]
  omega

end MBus
