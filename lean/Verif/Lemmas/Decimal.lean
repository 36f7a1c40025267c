import Verif.Model.Decimal
import Verif.Spec.Decimal
import Verif.Lemmas.Base
import Mathlib.Data.List.Induction
import Mathlib.Tactic.Ring
import Mathlib.Tactic.FieldSimp
import Mathlib.Tactic.Positivity
/-!
# Lemmas about decimal texts
-/
namespace MBus
open Spec

theorem digit_iff (c : Char) : ('0' ≤ c ∧ c ≤ '9') ↔ 48 ≤ c.toNat ∧ c.toNat ≤ 57 := by
  rw [Char.le_def, Char.le_def, UInt32.le_iff_toNat_le, UInt32.le_iff_toNat_le]
  rfl

theorem digitChr_toNat (n : Nat) (h : n < 10) : (digitChr n).toNat = 48 + n := by
  have : ∀ n : Fin 10, (digitChr n.val).toNat = 48 + n.val := by decide
  exact this ⟨n, h⟩

theorem digitVal_chr (n : Nat) (h : n < 10) : digitVal (digitChr n) = n := by
  rw [digitVal, digitChr_toNat n h]; omega

theorem digitChr_isDigit (n : Nat) (h : n < 10) : '0' ≤ digitChr n ∧ digitChr n ≤ '9' := by
  rw [digit_iff, digitChr_toNat n h]; omega

theorem digitVal_lt (c : Char) (h : '0' ≤ c ∧ c ≤ '9') : digitVal c < 10 := by
  rw [digit_iff] at h
  unfold digitVal; omega

theorem digitChr_val (c : Char) (h : '0' ≤ c ∧ c ≤ '9') : digitChr (digitVal c) = c := by
  have h' := (digit_iff c).1 h
  apply Char.toNat_inj.1
  rw [digitChr_toNat _ (digitVal_lt c h), digitVal]; omega

/-- value of digits, least significant first -/
def lsb : List Nat → Nat
  | [] => 0
  | d :: t => d + 10 * lsb t

theorem natOf_append_singleton (ds : List Char) (c : Char) :
    natOf (ds ++ [c]) = 10 * natOf ds + digitVal c := by
  simp [natOf, digitVal]

theorem natOf_reverse (l : List Char) : natOf l.reverse = lsb (l.map digitVal) := by
  induction l with
  | nil => rfl
  | cons c l ih => simp only [List.reverse_cons, natOf_append_singleton, ih, List.map_cons, lsb]; omega

theorem natOf_eq_lsb (l : List Char) : natOf l = lsb (l.reverse.map digitVal) := by
  rw [← natOf_reverse, List.reverse_reverse]

theorem natOf_append (a b : List Char) : natOf (a ++ b) = natOf a * 10 ^ b.length + natOf b := by
  induction b using List.reverseRecOn with
  | nil => simp [natOf]
  | append_singleton b c ih =>
    rw [← List.append_assoc, natOf_append_singleton, natOf_append_singleton, ih]
    simp [pow_succ]; ring

theorem natOf_zeros (k : Nat) : natOf (List.replicate k '0') = 0 := by
  induction k with
  | zero => rfl
  | succ k ih =>
    rw [List.replicate_succ', natOf_append_singleton, ih]; rfl

theorem natOf_cons_zero (l : List Char) : natOf ('0' :: l) = natOf l := by
  have := natOf_append ['0'] l
  simpa [natOf] using this

theorem natOf_zero_iff (ds : List Char) (h : Digits ds) : natOf ds = 0 ↔ ∀ c ∈ ds, c = '0' := by
  induction ds with
  | nil => simp [natOf]
  | cons c l ih =>
    have h2 := natOf_append [c] l
    have hc := h c (by simp)
    have h1 : natOf [c] = digitVal c := by simp [natOf, digitVal]
    rw [h1] at h2
    have hp : 0 < 10 ^ l.length := by positivity
    simp only [List.singleton_append] at h2
    rw [h2]
    have := ih (fun x hx => h x (by simp [hx]))
    have hz : digitVal c = 0 ↔ c = '0' := by
      constructor
      · intro hz; rw [← digitChr_val c hc, hz]; rfl
      · rintro rfl; rfl
    simp only [List.mem_cons, forall_eq_or_imp, Nat.add_eq_zero_iff, Nat.mul_eq_zero, ← this, hz]
    constructor
    · rintro ⟨h | h, h'⟩
      · exact ⟨h, h'⟩
      · omega
    · rintro ⟨h, h'⟩; exact ⟨Or.inl h, h'⟩

theorem natOf_lt (ds : List Char) (h : Digits ds) : natOf ds < 10 ^ ds.length := by
  induction ds using List.reverseRecOn with
  | nil => simp [natOf]
  | append_singleton l c ih =>
    rw [natOf_append_singleton]
    have := ih (fun x hx => h x (by simp [hx]))
    have hc := digitVal_lt c (h c (by simp))
    simp [pow_succ]; omega

theorem Digits.append {a b : List Char} (ha : Digits a) (hb : Digits b) : Digits (a ++ b) := by
  intro c hc; rcases List.mem_append.1 hc with h | h
  · exact ha c h
  · exact hb c h

theorem Digits.zeros (k : Nat) : Digits (List.replicate k '0') := by
  intro c hc
  rw [List.mem_replicate] at hc
  rw [hc.2]; decide

theorem Digits.of_map (l : List Nat) (h : ∀ d ∈ l, d < 10) : Digits (l.map digitChr) := by
  intro c hc
  obtain ⟨d, hd, rfl⟩ := List.mem_map.1 hc
  exact digitChr_isDigit d (h d hd)

theorem map_digitVal_chr (l : List Nat) (h : ∀ d ∈ l, d < 10) :
    (l.map digitChr).map digitVal = l := by
  rw [List.map_map]
  conv_rhs => rw [← List.map_id l]
  apply List.map_congr_left
  intro d hd
  exact digitVal_chr d (h d hd)

theorem digits_map_lt (ds : List Char) (h : Digits ds) : ∀ d ∈ ds.reverse.map digitVal, d < 10 := by
  intro d hd
  obtain ⟨c, hc, rfl⟩ := List.mem_map.1 hd
  exact digitVal_lt c (h c (by simpa using hc))

/-! ## signed_le_decimal -/

theorem carryDigits_spec (c : Nat) : lsb (carryDigits c) = c ∧ ∀ d ∈ carryDigits c, d < 10 := by
  induction c using Nat.strongRecOn with
  | _ c ih =>
    rw [carryDigits]
    by_cases h : c = 0
    · simp [h, lsb]
    · obtain ⟨h1, h2⟩ := ih (c / 10) (by omega)
      rw [if_neg h]
      simp only [lsb, h1, List.mem_cons, forall_eq_or_imp]
      exact ⟨by omega, by omega, h2⟩

theorem mulAddDigits_spec (ds : List Nat) (c : Nat) :
    lsb (mulAddDigits ds c) = 256 * lsb ds + c ∧ (∀ d ∈ mulAddDigits ds c, d < 10) ∧
      (ds ≠ [] → mulAddDigits ds c ≠ []) := by
  induction ds generalizing c with
  | nil =>
    have := carryDigits_spec c
    simp only [mulAddDigits, lsb]
    exact ⟨by omega, this.2, by simp⟩
  | cons d t ih =>
    obtain ⟨h1, h2, _⟩ := ih ((d * 256 + c) / 10)
    simp only [mulAddDigits, lsb, h1, List.mem_cons, forall_eq_or_imp]
    exact ⟨by omega, ⟨by omega, h2⟩, by simp⟩

theorem digits_of_bytes (l : List UInt8) :
    let ds := l.reverse.foldl (fun ds b => mulAddDigits ds b.toNat) [0]
    lsb ds = leValue l ∧ (∀ d ∈ ds, d < 10) ∧ ds ≠ [] := by
  simp only [List.foldl_reverse]
  induction l with
  | nil => simp [lsb, leValue]
  | cons b l ih =>
    obtain ⟨h1, h2, h3⟩ := ih
    have := mulAddDigits_spec (List.foldr (fun x y => mulAddDigits y x.toNat) [0] l) b.toNat
    simp only [List.foldr_cons, leValue]
    refine ⟨by rw [this.1, h1]; omega, this.2.1, this.2.2 h3⟩

theorem lsb_append (a b : List Nat) : lsb (a ++ b) = lsb a + 10 ^ a.length * lsb b := by
  induction a with
  | nil => simp [lsb]
  | cons d t ih => simp only [List.cons_append, lsb, ih, List.length_cons, pow_succ]; ring

theorem popZeros_spec (ds : List Nat) (hne : ds ≠ []) :
    lsb (popZeros ds).reverse = lsb ds.reverse ∧ popZeros ds ≠ [] ∧
      (popZeros ds = [0] ∨ (popZeros ds).head? ≠ some 0) ∧ (∀ d ∈ popZeros ds, d ∈ ds) := by
  induction ds with
  | nil => exact absurd rfl hne
  | cons d t ih =>
    match d, t with
    | 0, e :: r =>
      obtain ⟨h1, h2, h3, h4⟩ := ih (by simp)
      rw [popZeros]
      refine ⟨?_, h2, h3, fun x hx => by simp at h4 ⊢; exact Or.inr (h4 x hx)⟩
      rw [h1, List.reverse_cons (a := 0), lsb_append]
      simp [lsb]
    | 0, [] => simp [popZeros]
    | d + 1, t => simp [popZeros]

theorem lsb_pos_of_head (ds : List Nat) (hne : ds ≠ []) (h : ds.head? ≠ some 0) :
    10 ^ (ds.length - 1) ≤ lsb ds.reverse := by
  match ds, hne with
  | d :: t, _ =>
    rw [List.reverse_cons, lsb_append]
    have hd : d ≠ 0 := by simpa using h
    simp only [lsb, List.length_reverse, List.length_cons, Nat.add_sub_cancel]
    have : 10 ^ t.length * 1 ≤ 10 ^ t.length * (d + 10 * 0) := Nat.mul_le_mul_left _ (by omega)
    omega

theorem decimal_of_digits (ds : List Nat) (hne : ds ≠ []) (hd : ∀ d ∈ ds, d < 10)
    (hc : ds = [0] ∨ ds.head? ≠ some 0) : ds.map digitChr = decimal (lsb ds.reverse) := by
  induction ds using List.reverseRecOn with
  | nil => exact absurd rfl hne
  | append_singleton l d ih =>
    have hd' := hd d (by simp)
    rw [List.reverse_append, List.reverse_singleton, List.singleton_append, lsb]
    rw [List.map_append, List.map_singleton]
    rcases Nat.eq_zero_or_pos l.length with hl | hl
    · have : l = [] := List.length_eq_zero_iff.1 hl
      subst this
      rw [decimal, if_pos (by simp [lsb]; omega)]
      simp [lsb, digitChr]
    · have hne' : l ≠ [] := List.length_pos_iff.1 hl
      have hh : l.head? ≠ some 0 := by
        rcases hc with hc | hc
        · have := congrArg List.length hc
          rw [List.length_append] at this
          simp only [List.length_singleton] at this; omega
        · rwa [List.head?_append_of_ne_nil _ hne'] at hc
      have hpos := lsb_pos_of_head l hne' hh
      have hp : 0 < 10 ^ (l.length - 1) := by positivity
      rw [decimal, if_neg (show ¬ d + 10 * lsb l.reverse < 10 by omega), ih hne' (fun x hx => hd x (by simp [hx])) (Or.inr hh)]
      congr 1
      · congr 1; omega
      · simp only [List.cons.injEq, and_true, digitChr]
        congr 1
        have : (d + 10 * lsb l.reverse) % 10 = d := by omega
        rw [this]; rfl

theorem decimal_ne_zero (n : Nat) (h : 0 < n) : decimal n ≠ ['0'] := by
  intro he
  rw [decimal] at he
  split at he
  · rename_i hn
    have : ∀ n : Fin 10, 0 < n.val → [Char.ofNat ('0'.toNat + n.val)] ≠ ['0'] := by decide
    exact this ⟨n, hn⟩ h he
  · have h1 := congrArg List.length he
    have h2 : 0 < (decimal (n / 10)).length := by
      rw [decimal]; split <;> simp
    simp at h1
    simp [h1] at h2

theorem unsignedLe_lt (l : List UInt8) : leValue l < 256 ^ l.length := by
  induction l with
  | nil => simp [leValue]
  | cons b l ih =>
    have := b.toNat_lt
    simp only [leValue, List.length_cons, pow_succ]; omega

theorem unsignedLe_compl (l : List UInt8) :
    leValue (l.map (~~~ ·)) + leValue l + 1 = 256 ^ l.length := by
  induction l with
  | nil => simp [leValue]
  | cons b l ih =>
    have : (~~~ b).toNat + b.toNat = 255 := by
      have key : ∀ b : UInt8, (~~~ b).toNat + b.toNat = 255 := by decide +kernel
      exact key b
    simp only [List.map_cons, leValue, List.length_cons, pow_succ]; omega

theorem unsignedLe_addCarry (l : List UInt8) (c : Nat) (h : leValue l + c < 256 ^ l.length) :
    leValue (addCarry l c) = leValue l + c := by
  induction l generalizing c with
  | nil => simp [leValue] at h; simp [addCarry, leValue, h]
  | cons b l ih =>
    have hb := b.toNat_lt
    simp only [leValue, List.length_cons, pow_succ] at h
    have hs : (UInt8.ofNat (b.toNat + c)).toNat = (b.toNat + c) % 256 := by simp
    simp only [addCarry, leValue, hs]
    by_cases h0 : (b.toNat + c) / 256 = 0
    · rw [if_pos h0]; omega
    · rw [if_neg h0, ih _ (by omega)]; omega

theorem unsignedLe_append (a b : List UInt8) :
    leValue (a ++ b) = leValue a + 256 ^ a.length * leValue b := by
  induction a with
  | nil => simp [leValue]
  | cons x t ih => simp only [List.cons_append, leValue, ih, List.length_cons, pow_succ]; ring

theorem negative_iff (bytes : List UInt8) (last : UInt8) (h : bytes.getLast? = some last) :
    (last &&& 0x80 != 0) = true ↔ ¬ 2 * leValue bytes < 256 ^ bytes.length := by
  obtain ⟨i, rfl⟩ := List.getLast?_eq_some_iff.1 h
  have key : ∀ b : UInt8, (b &&& 0x80 != 0) = true ↔ 128 ≤ b.toNat := by decide +kernel
  rw [key, unsignedLe_append]
  have h1 := unsignedLe_lt i
  have h2 := last.toNat_lt
  simp only [leValue, List.length_append, List.length_singleton, pow_succ]
  generalize 256 ^ i.length = p at *
  constructor
  · intro h
    have : p * 128 ≤ p * (last.toNat + 256 * 0) := Nat.mul_le_mul_left _ (by omega)
    omega
  · intro h
    by_contra hc
    have : p * (last.toNat + 256 * 0) ≤ p * 127 := Nat.mul_le_mul_left _ (by omega)
    omega

theorem signedLeDecimal_eq (bytes : List UInt8) (hne : bytes ≠ []) :
    signedLeDecimal bytes = some (decimalInt (twosComplement bytes)) := by
  obtain ⟨last, hl⟩ : ∃ x, bytes.getLast? = some x := ⟨_, List.getLast?_eq_some_getLast hne⟩
  have hneg := negative_iff bytes last hl
  have hlt := unsignedLe_lt bytes
  have key : ∀ m : List UInt8, (popZeros (m.reverse.foldl (fun ds b => mulAddDigits ds b.toNat)
      [0]).reverse).map digitChr = decimal (leValue m) := by
    intro m
    obtain ⟨h1, h2, h3⟩ := digits_of_bytes m
    generalize m.reverse.foldl (fun ds b => mulAddDigits ds b.toNat) [0] = ds at *
    obtain ⟨p1, p2, p3, p4⟩ := popZeros_spec ds.reverse (by simpa using h3)
    rw [decimal_of_digits _ p2 (fun d hd => h2 d (by simpa using p4 d hd)) p3, p1,
      List.reverse_reverse, h1]
  unfold signedLeDecimal
  simp only [hl, key]
  unfold decimalInt twosComplement
  by_cases hn : 2 * leValue bytes < 256 ^ bytes.length
  · have : (last &&& 0x80 != 0) = false := by
      rw [Bool.eq_false_iff, ne_eq, hneg]; simp [hn]
    rw [this, if_pos hn]
    simp [signText]
  · have : (last &&& 0x80 != 0) = true := hneg.2 hn
    rw [this, if_neg hn]
    have hc := unsignedLe_compl bytes
    have hac := unsignedLe_addCarry (bytes.map (~~~ ·)) 1 (by rw [List.length_map]; omega)
    simp only [if_true, Bool.true_and, hac]
    have hv : leValue (bytes.map (~~~ ·)) + 1 = 256 ^ bytes.length - leValue bytes := by omega
    rw [hv]
    have hpos : 0 < 256 ^ bytes.length - leValue bytes := by omega
    have hd := decimal_ne_zero _ hpos
    rw [if_pos (by simpa using hd)]
    have hz : ((leValue bytes : Int) - 256 ^ bytes.length) < 0 := by
      have : (leValue bytes : Int) < ((256 ^ bytes.length : Nat) : Int) := by exact_mod_cast hlt
      push_cast at this; omega
    have habs : ((leValue bytes : Int) - 256 ^ bytes.length).natAbs =
        256 ^ bytes.length - leValue bytes := by
      have h1 : ((256 ^ bytes.length : Nat) : Int) = 256 ^ bytes.length := by push_cast; rfl
      rw [← h1]; omega
    rw [habs]
    simp [signText, hz]

/-! ## sums and differences -/

theorem addLoop_spec (l r : List Nat) (c : Nat) :
    lsb (addLoop l r c) = lsb l + lsb r + c ∧ ∀ d ∈ addLoop l r c, d < 10 := by
  fun_induction addLoop l r c with
  | case1 => simp [lsb]
  | case2 c h ih =>
    simp only [lsb, ih.1, List.mem_cons, forall_eq_or_imp]
    exact ⟨by omega, by omega, ih.2⟩
  | case3 c a l ih =>
    simp only [lsb, ih.1, List.mem_cons, forall_eq_or_imp]
    exact ⟨by omega, by omega, ih.2⟩
  | case4 c b r ih =>
    simp only [lsb, ih.1, List.mem_cons, forall_eq_or_imp]
    exact ⟨by omega, by omega, ih.2⟩
  | case5 c a l b r ih =>
    simp only [lsb, ih.1, List.mem_cons, forall_eq_or_imp]
    exact ⟨by omega, by omega, ih.2⟩

theorem natOf_chr_reverse (l : List Nat) (h : ∀ d ∈ l, d < 10) :
    natOf (l.map digitChr).reverse = lsb l := by
  rw [natOf_reverse, map_digitVal_chr l h]

theorem addAbs_spec (l r : List Char) :
    natOf (addAbs l r) = natOf l + natOf r ∧ Digits (addAbs l r) := by
  have := addLoop_spec (l.reverse.map digitVal) (r.reverse.map digitVal) 0
  constructor
  · rw [addAbs, natOf_chr_reverse _ this.2, this.1, natOf_eq_lsb l, natOf_eq_lsb r]; rfl
  · intro c hc
    rw [addAbs, List.mem_reverse] at hc
    exact Digits.of_map _ this.2 c hc

theorem addLoop_length (l r : List Nat) (c : Nat) :
    l.length ≤ (addLoop l r c).length ∧ r.length ≤ (addLoop l r c).length := by
  fun_induction addLoop l r c <;> simp_all

theorem subLoop_spec (l s : List Nat) (b : Nat) (hl : ∀ d ∈ l, d < 10) (hs : ∀ d ∈ s, d < 10)
    (hb : b ≤ 1) (h : lsb s + b ≤ lsb l) :
    lsb (subLoop l s b) + lsb s + b = lsb l ∧ ∀ d ∈ subLoop l s b, d < 10 := by
  induction l generalizing s b with
  | nil => simp [lsb] at h; simp [subLoop, lsb, h]
  | cons v l ih =>
    have hv := hl v (by simp)
    have hl' : ∀ d ∈ l, d < 10 := fun d hd => hl d (by simp [hd])
    have hs' : ∀ d ∈ s.tail, d < 10 := fun d hd => hs d (List.mem_of_mem_tail hd)
    have hsplit : lsb s = s.head?.getD 0 + 10 * lsb s.tail := by cases s <;> simp [lsb]
    have hh : s.head?.getD 0 < 10 := by
      cases s with
      | nil => simp
      | cons a t => simpa using hs a (by simp)
    rw [subLoop]
    generalize s.head?.getD 0 = a at *
    simp only [lsb] at h ⊢
    by_cases hc : (v : Int) - b < a
    · rw [if_pos hc]
      obtain ⟨i1, i2⟩ := ih s.tail 1 hl' hs' (by omega) (by omega)
      have i1' : lsb (subLoop l s.tail 1) + lsb s.tail + 1 = lsb l := i1
      simp only [lsb, List.mem_cons, forall_eq_or_imp]
      exact ⟨by omega, by omega, i2⟩
    · rw [if_neg hc]
      obtain ⟨i1, i2⟩ := ih s.tail 0 hl' hs' (by omega) (by omega)
      have i1' : lsb (subLoop l s.tail 0) + lsb s.tail + 0 = lsb l := i1
      simp only [lsb, List.mem_cons, forall_eq_or_imp]
      exact ⟨by omega, by omega, i2⟩

theorem subLoop_length (l s : List Nat) (b : Int) : (subLoop l s b).length = l.length := by
  induction l generalizing s b with
  | nil => rfl
  | cons v l ih =>
    rw [subLoop]
    split <;> simp [ih]

theorem subtractAbs_spec (l s : List Char) (hl : Digits l) (hs : Digits s) (hne : l ≠ [])
    (h : natOf s ≤ natOf l) :
    natOf (subtractAbs l s) + natOf s = natOf l ∧ Digits (subtractAbs l s) ∧ subtractAbs l s ≠ [] ∧
      (subtractAbs l s = ['0'] ∨ (subtractAbs l s).head? ≠ some '0') := by
  rw [natOf_eq_lsb l, natOf_eq_lsb s] at h
  obtain ⟨h1, h2⟩ := subLoop_spec (l.reverse.map digitVal) (s.reverse.map digitVal) 0
    (digits_map_lt l hl) (digits_map_lt s hs) (by omega) (by omega)
  have hlen := subLoop_length (l.reverse.map digitVal) (s.reverse.map digitVal) 0
  simp only [Nat.cast_zero, Int.ofNat_zero, Nat.add_zero] at h1 h2
  generalize hds : subLoop (l.reverse.map digitVal) (s.reverse.map digitVal) 0 = ds at *
  have hds' : ds ≠ [] := by
    intro he
    rw [he] at hlen
    simp at hlen
    exact hne (List.length_eq_zero_iff.1 hlen.symm)
  obtain ⟨p1, p2, p3, p4⟩ := popZeros_spec ds.reverse (by simpa using hds')
  have p5 : ∀ d ∈ popZeros ds.reverse, d < 10 := fun d hd => h2 d (by simpa using p4 d hd)
  unfold subtractAbs
  rw [hds]
  refine ⟨?_, Digits.of_map _ p5, by simpa using p2, ?_⟩
  · have := natOf_chr_reverse (popZeros ds.reverse).reverse (fun d hd => p5 d (by simpa using hd))
    rw [List.map_reverse, List.reverse_reverse] at this
    rw [this, p1, List.reverse_reverse, natOf_eq_lsb l, natOf_eq_lsb s, h1]
  · rcases p3 with p3 | p3
    · left; rw [p3]; rfl
    · right
      intro hh
      match hp : popZeros ds.reverse with
      | [] => exact p2 hp
      | d :: t =>
        rw [hp] at p3 p5 hh
        have hd := p5 d (by simp)
        simp at hh p3
        have := congrArg digitVal hh
        rw [digitVal_chr d hd] at this
        exact p3 (by simpa [digitVal] using this)

theorem dropZeros_spec (ds : List Char) (h : Digits ds) :
    natOf (ds.dropWhile (· == '0')) = natOf ds ∧ Digits (ds.dropWhile (· == '0')) ∧
      (ds.dropWhile (· == '0')).head? ≠ some '0' := by
  induction ds with
  | nil => simp [natOf, Digits]
  | cons c l ih =>
    rw [List.dropWhile_cons]
    by_cases hc : c = '0'
    · subst hc
      rw [if_pos (by simp), natOf_cons_zero]
      exact ih (fun x hx => h x (by simp [hx]))
    · rw [if_neg (by simpa using hc)]
      exact ⟨rfl, h, by simpa using hc⟩

theorem natOf_ge (ds : List Char) (h : Digits ds) (hne : ds ≠ []) (hh : ds.head? ≠ some '0') :
    10 ^ (ds.length - 1) ≤ natOf ds := by
  match ds, hne with
  | c :: l, _ =>
    have h2 := natOf_append [c] l
    have h1 : natOf [c] = digitVal c := by simp [natOf, digitVal]
    have hc : digitVal c ≠ 0 := by
      intro hz
      apply hh
      rw [← digitChr_val c (h c (by simp)), hz]; rfl
    rw [h1] at h2
    simp only [List.singleton_append] at h2
    rw [h2]
    have : 1 * 10 ^ l.length ≤ digitVal c * 10 ^ l.length := Nat.mul_le_mul_right _ (by omega)
    simp; omega

theorem lexCompare_spec (l r : List Char) (hl : Digits l) (hr : Digits r) (h : l.length = r.length) :
    lexCompare l r = compare (natOf l) (natOf r) := by
  induction l generalizing r with
  | nil => cases r <;> simp_all [lexCompare, natOf]
  | cons a l ih =>
    match r, h with
    | b :: r, h =>
      simp at h
      have ha := natOf_append [a] l
      have hb := natOf_append [b] r
      have e : ∀ c : Char, natOf [c] = digitVal c := fun c => by simp [natOf, digitVal]
      rw [e] at ha hb
      simp only [List.singleton_append] at ha hb
      have hl' : Digits l := fun x hx => hl x (by simp [hx])
      have hr' : Digits r := fun x hx => hr x (by simp [hx])
      have l1 := natOf_lt l hl'
      have l2 := natOf_lt r hr'
      have da := (digit_iff a).1 (hl a (by simp))
      have db := (digit_iff b).1 (hr b (by simp))
      rw [← h] at hb l2
      rw [lexCompare, ha, hb]
      unfold digitVal
      generalize 10 ^ l.length = p at *
      split
      · rename_i hlt
        symm
        rw [Nat.compare_eq_lt]
        have : (a.toNat - 48 + 1) * p ≤ (b.toNat - 48) * p := Nat.mul_le_mul_right _ (by omega)
        rw [Nat.add_mul] at this
        omega
      · split
        · rename_i _ hlt
          symm
          rw [Nat.compare_eq_gt]
          have : (b.toNat - 48 + 1) * p ≤ (a.toNat - 48) * p := Nat.mul_le_mul_right _ (by omega)
          rw [Nat.add_mul] at this
          omega
        · have hab : a.toNat = b.toNat := by omega
          rw [ih r hl' hr' h, hab]
          simp only [Nat.compare_eq_ite_lt]
          simp

theorem compareAbs_spec (l r : List Char) (hl : Digits l) (hr : Digits r) :
    compareAbs l r = compare (natOf l) (natOf r) := by
  obtain ⟨l1, l2, l3⟩ := dropZeros_spec l hl
  obtain ⟨r1, r2, r3⟩ := dropZeros_spec r hr
  unfold compareAbs
  rw [← l1, ← r1]
  generalize l.dropWhile (· == '0') = a at *
  generalize r.dropWhile (· == '0') = b at *
  have hlt : ∀ a b : List Char, Digits a → Digits b → b.head? ≠ some '0' → a.length < b.length →
      natOf a < natOf b := by
    intro a b ha hb hh h
    have h1 := natOf_lt a ha
    have h2 := natOf_ge b hb (by rintro rfl; simp at h) hh
    have : 10 ^ a.length ≤ 10 ^ (b.length - 1) := Nat.pow_le_pow_right (by omega) (by omega)
    omega
  simp only
  split
  · rename_i h
    symm; rw [Nat.compare_eq_lt]; exact hlt a b l2 r2 r3 h
  · split
    · rename_i _ h
      symm; rw [Nat.compare_eq_gt]; exact hlt b a r2 l2 l3 h
    · exact lexCompare_spec a b l2 r2 (by omega)

theorem splitSign_eq (neg : Bool) (ds : List Char) (hne : ds ≠ []) (hd : Digits ds) :
    splitSign (signText neg ++ ds) = (neg, ds) := by
  cases neg with
  | true => rfl
  | false =>
    match ds, hne with
    | c :: l, _ =>
      have hc := (digit_iff c).1 (hd c (by simp))
      have : c ≠ '-' := by
        rintro rfl
        revert hc
        decide
      simp only [signText, List.nil_append, splitSign]
      split
      · rename_i heq
        simp at heq
        exact absurd heq.1 this
      · rfl

/-- Sums of signed decimal integers. -/
theorem addSigned_spec (ln rn : Bool) (l r : List Char) (hl : Digits l) (hr : Digits r)
    (hln : l ≠ []) (hrn : r ≠ []) :
    ∃ neg ds, addSignedDecimalIntegers (signText ln ++ l) (signText rn ++ r) = signText neg ++ ds ∧
      Digits ds ∧ ds ≠ [] ∧
      (if neg then -(natOf ds : Int) else natOf ds) =
        (if ln then -(natOf l : Int) else natOf l) + (if rn then -(natOf r : Int) else natOf r) ∧
      ((ds = ['0'] ∨ ds.head? ≠ some '0') ∨ (ln = rn ∧ ds = addAbs l r)) := by
  unfold addSignedDecimalIntegers
  rw [splitSign_eq ln l hln hl, splitSign_eq rn r hrn hr]
  simp only
  by_cases hs : ln = rn
  · subst hs
    obtain ⟨h1, h2⟩ := addAbs_spec l r
    have hne : addAbs l r ≠ [] := by
      have := (addLoop_length (l.reverse.map digitVal) (r.reverse.map digitVal) 0).1
      intro he
      have hl0 := congrArg List.length he
      simp [addAbs] at hl0 this
      rw [hl0] at this
      exact hln (List.length_eq_zero_iff.1 (by simpa using this))
    rw [if_pos rfl]
    by_cases hz : ln && addAbs l r != ['0']
    · rw [if_pos hz]
      simp at hz
      refine ⟨true, addAbs l r, by simp [signText], h2, hne, ?_, Or.inr ⟨rfl, rfl⟩⟩
      rw [h1, hz.1]; simp; omega
    · rw [if_neg hz]
      refine ⟨false, addAbs l r, by simp [signText], h2, hne, ?_, Or.inr ⟨rfl, rfl⟩⟩
      cases ln with
      | false => simp [h1]
      | true =>
        simp at hz
        rw [hz] at h1
        have : natOf ['0'] = 0 := rfl
        rw [hz, this]
        rw [this] at h1
        simp; omega
  · rw [if_neg hs, compareAbs_spec l r hl hr]
    cases hc : compare (natOf l) (natOf r) with
    | eq =>
      rw [Nat.compare_eq_eq] at hc
      refine ⟨false, ['0'], by simp [signText], by intro c hc; simp at hc; subst hc; decide, by simp, ?_,
        Or.inl (Or.inl rfl)⟩
      have : natOf ['0'] = 0 := rfl
      rw [hc, this]
      cases ln <;> cases rn <;> simp at hs ⊢
    | gt =>
      rw [Nat.compare_eq_gt] at hc
      obtain ⟨h1, h2, h3, h4⟩ := subtractAbs_spec l r hl hr hln (by omega)
      refine ⟨ln, subtractAbs l r, by cases ln <;> simp [signText], h2, h3, ?_, Or.inl h4⟩
      cases ln <;> cases rn <;> simp at hs ⊢ <;> omega
    | lt =>
      rw [Nat.compare_eq_lt] at hc
      obtain ⟨h1, h2, h3, h4⟩ := subtractAbs_spec r l hr hl hrn (by omega)
      refine ⟨rn, subtractAbs r l, by cases rn <;> simp [signText], h2, h3, ?_, Or.inl h4⟩
      cases ln <;> cases rn <;> simp at hs ⊢ <;> omega

/-! ## powers of ten -/

theorem not_mem_of_digits (ds : List Char) (h : Digits ds) (c : Char) (hc : ¬ ('0' ≤ c ∧ c ≤ '9')) :
    c ∉ ds := fun hm => hc (h c hm)

theorem trimFraction_integer (ds : List Char) (h : Digits ds) : trimFraction ds = ds := by
  have hdot := not_mem_of_digits ds h '.' (by decide)
  have hc : ¬ (ds.contains '.' = true) := by simpa using hdot
  have hl : ¬ (ds.getLast? = some '.') := fun hl => hdot (List.mem_of_getLast? hl)
  unfold trimFraction
  simp only [if_neg hc, if_neg hl]

theorem dropWhile_zeros_split (l : List Char) :
    ∃ k, l = List.replicate k '0' ++ l.dropWhile (· == '0') ∧
      (l.dropWhile (· == '0')).head? ≠ some '0' := by
  induction l with
  | nil => exact ⟨0, by simp⟩
  | cons c l ih =>
    rw [List.dropWhile_cons]
    by_cases hc : c = '0'
    · subst hc
      obtain ⟨k, h1, h2⟩ := ih
      rw [if_pos (by simp)]
      exact ⟨k + 1, by rw [List.replicate_succ, List.cons_append, ← h1], h2⟩
    · rw [if_neg (by simpa using hc)]
      exact ⟨0, by simp, by simpa using hc⟩

theorem trimFraction_spec (ip fp : List Char) (hf : Digits fp) :
    ∃ k fp', fp = fp' ++ List.replicate k '0' ∧ fp'.getLast? ≠ some '0' ∧
      trimFraction (ip ++ '.' :: fp) = ip ++ (if fp' = [] then [] else '.' :: fp') := by
  obtain ⟨k, h1, h2⟩ := dropWhile_zeros_split fp.reverse
  have hfp : fp = (fp.reverse.dropWhile (· == '0')).reverse ++ List.replicate k '0' := by
    have := congrArg List.reverse h1
    simpa using this
  have hdrop : (ip ++ '.' :: fp).reverse.dropWhile (· == '0') =
      fp.reverse.dropWhile (· == '0') ++ '.' :: ip.reverse := by
    rw [List.reverse_append, List.reverse_cons, List.append_assoc, List.singleton_append]
    rw [List.dropWhile_append]
    split
    · rename_i he
      rw [List.isEmpty_iff] at he
      rw [he, List.dropWhile_cons, if_neg (by decide)]; rfl
    · rfl
  generalize hg : fp.reverse.dropWhile (· == '0') = g at *
  have hgd : Digits g.reverse := by
    intro c hc
    exact hf c (by rw [hfp]; exact List.mem_append_left _ hc)
  refine ⟨k, g.reverse, hfp, by rw [List.getLast?_reverse]; exact h2, ?_⟩
  have hc : (ip ++ '.' :: fp).contains '.' = true := by simp
  unfold trimFraction
  simp only [if_pos hc, hdrop]
  simp only [ List.reverse_append, List.reverse_cons, List.reverse_reverse, List.append_assoc,
    List.singleton_append]
  by_cases hge : g = []
  · subst hge
    simp
  · have hne : g.reverse ≠ [] := by simpa using hge
    rw [if_neg hne, if_neg]
    intro hl
    rw [List.getLast?_append, List.getLast?_cons] at hl
    obtain ⟨x, hx⟩ : ∃ x, g.reverse.getLast? = some x := ⟨_, List.getLast?_eq_some_getLast hne⟩
    rw [hx] at hl
    simp at hl
    subst hl
    have := hgd _ (List.mem_of_getLast? hx)
    revert this; decide

theorem all_zero_iff (ds : List Char) (h : Digits ds) : ds.all (· == '0') = true ↔ natOf ds = 0 := by
  rw [natOf_zero_iff ds h]; simp

/-- `apply_power10` multiplies by a power of ten; the digits after the point never end in a zero, and
the digits before it start with a zero only if there is no other or the given digits did. -/
theorem applyPower10_spec (neg : Bool) (ds : List Char) (e : Int) (hd : Digits ds) (hne : ds ≠ []) :
    ∃ ip fp, applyPower10 (signText neg ++ ds) e =
        decimalText (neg && decide (natOf ds ≠ 0)) ip fp ∧
      ip ≠ [] ∧ Digits ip ∧ Digits fp ∧ fp.getLast? ≠ some '0' ∧
      (natOf (ip ++ fp) : ℚ) / 10 ^ fp.length = natOf ds * 10 ^ e ∧
      (natOf ds = 0 ∨ ds.head? ≠ some '0' ∨ (e < 0 ∧ ds.length ≤ e.natAbs + 1) →
        ip = ['0'] ∨ ip.head? ≠ some '0') := by
  unfold applyPower10
  rw [splitSign_eq neg ds hne hd]
  simp only
  by_cases hz : natOf ds = 0
  · rw [if_pos ((all_zero_iff ds hd).2 hz)]
    refine ⟨['0'], [], ?_, by simp, ?_, by intro c hc; simp at hc, by simp, ?_, fun _ => Or.inl rfl⟩
    · simp [decimalText, hz, signText]
    · intro c hc; simp at hc; subst hc; decide
    · have : natOf (['0'] ++ []) = 0 := rfl
      rw [this, hz]; simp
  · rw [if_neg (by rw [all_zero_iff ds hd]; exact hz)]
    have fin : ∀ ip fp, Digits ip → ip ≠ [] → Digits fp → natOf (ip ++ fp) ≠ 0 →
        (if (neg && (ip ++ (if fp = [] then [] else '.' :: fp)) != ['0']) = true then
            '-' :: (ip ++ (if fp = [] then [] else '.' :: fp))
          else ip ++ (if fp = [] then [] else '.' :: fp)) =
        decimalText (neg && decide (natOf ds ≠ 0)) ip fp := by
      intro ip fp hi hin hf h0
      have hnz : ip ++ (if fp = [] then [] else '.' :: fp) ≠ ['0'] := by
        intro he
        by_cases hfe : fp = []
        · subst hfe
          simp at he h0
          rw [he] at h0
          exact h0 rfl
        · rw [if_neg hfe] at he
          have := congrArg List.length he
          have hl : 0 < ip.length := List.length_pos_iff.2 hin
          simp at this
          omega
      have hb : ((ip ++ (if fp = [] then [] else '.' :: fp)) != ['0']) = true := by
        simpa using hnz
      rw [hb]
      cases neg <;> simp [decimalText, signText, hz]
    by_cases he : 0 ≤ e
    · rw [if_pos he]
      have hdz := Digits.append hd (Digits.zeros e.toNat)
      rw [trimFraction_integer _ hdz]
      have hn : natOf (ds ++ List.replicate e.toNat '0') = natOf ds * 10 ^ e.toNat := by
        rw [natOf_append, natOf_zeros]; simp
      refine ⟨ds ++ List.replicate e.toNat '0', [], ?_, by simp [hne], hdz,
        by intro c hc; simp at hc, by simp, ?_, ?_⟩
      · have := fin (ds ++ List.replicate e.toNat '0') [] hdz (by simp [hne])
          (by intro c hc; simp at hc) (by rw [List.append_nil, hn]; positivity)
        simpa using this
      · rw [List.append_nil, hn]
        obtain ⟨n, rfl⟩ := Int.eq_ofNat_of_zero_le he
        simp
      · intro h
        rcases h with h | h | h
        · exact absurd h hz
        · right; rw [List.head?_append_of_ne_nil _ hne]; exact h
        · omega
    · rw [if_neg he]
      have hpow : (10 : ℚ) ^ e = 1 / 10 ^ e.natAbs := by
        obtain ⟨n, hn⟩ := Int.eq_ofNat_of_zero_le (show 0 ≤ -e by omega)
        have : e = -(n : Int) := by omega
        subst this
        simp
      have main : ∀ ip fp, Digits ip → ip ≠ [] → Digits fp → fp.length = e.natAbs →
          natOf (ip ++ fp) = natOf ds →
          ((natOf ds = 0 ∨ ds.head? ≠ some '0' ∨ (e < 0 ∧ ds.length ≤ e.natAbs + 1) →
            ip = ['0'] ∨ ip.head? ≠ some '0')) →
          ∃ ip' fp', (if (neg && trimFraction (ip ++ '.' :: fp) != ['0']) = true then
              '-' :: trimFraction (ip ++ '.' :: fp) else trimFraction (ip ++ '.' :: fp)) =
            decimalText (neg && decide (natOf ds ≠ 0)) ip' fp' ∧
          ip' ≠ [] ∧ Digits ip' ∧ Digits fp' ∧ fp'.getLast? ≠ some '0' ∧
          (natOf (ip' ++ fp') : ℚ) / 10 ^ fp'.length = natOf ds * 10 ^ e ∧
          (natOf ds = 0 ∨ ds.head? ≠ some '0' ∨ (e < 0 ∧ ds.length ≤ e.natAbs + 1) →
            ip' = ['0'] ∨ ip'.head? ≠ some '0') := by
        intro ip fp hi hin hf hlen hval hcan
        obtain ⟨k, fp', h1, h2, h3⟩ := trimFraction_spec ip fp hf
        have hf' : Digits fp' := fun c hc => hf c (by rw [h1]; simp [hc])
        have hv : natOf (ip ++ fp) = natOf (ip ++ fp') * 10 ^ k := by
          rw [h1, ← List.append_assoc, natOf_append, natOf_zeros]; simp
        refine ⟨ip, fp', ?_, hin, hi, hf', h2, ?_, hcan⟩
        · rw [h3]
          refine fin ip fp' hi hin hf' ?_
          intro h0
          rw [h0] at hv
          omega
        · rw [hpow, ← hlen, ← hval, hv, h1]
          have : fp'.length + k = (fp' ++ List.replicate k '0').length := by simp
          rw [← this]
          push_cast
          rw [pow_add]
          field_simp
      by_cases hlen : ds.length > e.natAbs
      · rw [if_pos hlen]
        apply main
        · intro c hc; exact hd c (List.mem_of_mem_take hc)
        · intro h0
          have := congrArg List.length h0
          simp at this; omega
        · intro c hc; exact hd c (List.mem_of_mem_drop hc)
        · simp; omega
        · rw [List.take_append_drop]
        · intro h
          rcases h with h | h | ⟨_, h⟩
          · exact absurd h hz
          · right
            rw [List.head?_take, if_neg (by omega)]; exact h
          · have h1 : ds.length - e.natAbs = 1 := by omega
            rw [h1]
            match ds, hne with
            | c :: t, _ =>
              simp
              by_cases hc : c = '0'
              · exact Or.inl hc
              · exact Or.inr hc
      · rw [if_neg hlen]
        have := main ['0'] (List.replicate (e.natAbs - ds.length) '0' ++ ds)
          (by intro c hc; simp at hc; subst hc; decide) (by simp)
          (Digits.append (Digits.zeros _) hd) (by simp; omega)
          (by rw [List.singleton_append, natOf_cons_zero, natOf_append, natOf_zeros]; simp)
          (fun _ => Or.inl rfl)
        exact this

/-! ## sums without leading zeros -/

theorem addLoop_carry (l r : List Nat) (c : Nat) (hl : ∀ d ∈ l, d < 10) (hr : ∀ d ∈ r, d < 10)
    (hc : c ≤ 1) :
    (addLoop l r c).length ≤ max l.length r.length ∨ (addLoop l r c).getLast? = some 1 := by
  fun_induction addLoop l r c with
  | case1 => left; simp
  | case2 c h ih =>
    have : c = 1 := by omega
    subst this
    right
    rw [show (1 / 10 : Nat) = 0 from rfl, addLoop]
    simp
  | case3 a l c ih =>
    have := hl a (by simp)
    rcases ih (fun d hd => hl d (by simp [hd])) hr (by omega) with h | h
    · left; simp at h ⊢; omega
    · right; rw [List.getLast?_cons, h]; rfl
  | case4 b r c ih =>
    have := hr b (by simp)
    rcases ih hl (fun d hd => hr d (by simp [hd])) (by omega) with h | h
    · left; simp at h ⊢; omega
    · right; rw [List.getLast?_cons, h]; rfl
  | case5 a l b r c ih =>
    have := hl a (by simp)
    have := hr b (by simp)
    rcases ih (fun d hd => hl d (by simp [hd])) (fun d hd => hr d (by simp [hd])) (by omega) with h | h
    · left; simp at h ⊢; omega
    · right; rw [List.getLast?_cons, h]; rfl

theorem addAbs_carry (l r : List Char) (hl : Digits l) (hr : Digits r) :
    (addAbs l r).length ≤ max l.length r.length ∨ (addAbs l r).head? = some '1' := by
  rcases addLoop_carry (l.reverse.map digitVal) (r.reverse.map digitVal) 0 (digits_map_lt l hl)
    (digits_map_lt r hr) (by omega) with h | h
  · left; simpa [addAbs] using h
  · right
    rw [addAbs, List.head?_reverse, List.getLast?_map, h]; rfl

theorem head_ne_zero_of_ge (ds : List Char) (hd : Digits ds) (h : 10 ^ (ds.length - 1) ≤ natOf ds) :
    ds.head? ≠ some '0' := by
  match ds with
  | [] => simp
  | c :: t =>
    intro hc
    simp at hc
    subst hc
    rw [natOf_cons_zero] at h
    have := natOf_lt t (fun x hx => hd x (by simp [hx]))
    simp at h
    omega

theorem addAbs_head (l r : List Char) (hl : Digits l) (hr : Digits r)
    (h : (l ≠ [] ∧ l.head? ≠ some '0' ∧ r.length ≤ l.length) ∨
      (r ≠ [] ∧ r.head? ≠ some '0' ∧ l.length ≤ r.length)) : (addAbs l r).head? ≠ some '0' := by
  obtain ⟨h1, h2⟩ := addAbs_spec l r
  rcases addAbs_carry l r hl hr with hc | hc
  · apply head_ne_zero_of_ge _ h2
    rw [h1]
    rcases h with ⟨a, b, c⟩ | ⟨a, b, c⟩
    · have := natOf_ge l hl a b
      have : 10 ^ ((addAbs l r).length - 1) ≤ 10 ^ (l.length - 1) :=
        Nat.pow_le_pow_right (by omega) (by omega)
      omega
    · have := natOf_ge r hr a b
      have : 10 ^ ((addAbs l r).length - 1) ≤ 10 ^ (r.length - 1) :=
        Nat.pow_le_pow_right (by omega) (by omega)
      omega
  · rw [hc]; decide

theorem digits_one_zeros (k : Nat) : Digits ('1' :: List.replicate k '0') := by
  intro c hc
  rcases List.mem_cons.1 hc with rfl | hc
  · decide
  · exact Digits.zeros k c hc

theorem natOf_one_zeros (k : Nat) : natOf ('1' :: List.replicate k '0') = 10 ^ k := by
  have := natOf_append ['1'] (List.replicate k '0')
  rw [natOf_zeros] at this
  simpa [natOf] using this

theorem signText_cons (neg : Bool) (l : List Char) :
    (if neg = true then '-' :: l else l) = signText neg ++ l := by
  cases neg <;> rfl

/-- The signed integer handed to `apply_power10`, and what is known of its digits. -/
theorem scaledDecimal_integer (neg : Bool) (ds : List Char) (scale : Int) (offset : Option Int)
    (hd : Digits ds) (hne : ds ≠ []) :
    ∃ neg' ds' e, scaledDecimal (signText neg ++ ds) scale offset = applyPower10 (signText neg' ++ ds') e ∧
      Digits ds' ∧ ds' ≠ [] ∧
      ((if neg' then -1 else 1) * (natOf ds' : ℚ) * 10 ^ e =
        (if neg then -1 else 1) * (natOf ds : ℚ) * 10 ^ scale + offset.elim 0 (fun o => 10 ^ o)) ∧
      e = (match offset with | some o => min o scale | none => scale) ∧
      ((ds = ['0'] ∨ ds.head? ≠ some '0') →
        natOf ds' = 0 ∨ ds'.head? ≠ some '0' ∨
        (∃ o, offset = some o ∧ o < scale ∧ natOf ds = 0 ∧ neg = false ∧
          ds' = addAbs (ds ++ List.replicate (scale - o).toNat '0') ['1'])) := by
  unfold scaledDecimal
  rw [splitSign_eq neg ds hne hd]
  cases offset with
  | none =>
    simp only [signText_cons]
    refine ⟨neg, ds, scale, by simp, hd, hne, by simp, rfl, ?_⟩
    rintro (h | h)
    · left; rw [h]; rfl
    · right; left; exact h
  | some o =>
    simp only [signText_cons]
    have hdz := Digits.append hd (Digits.zeros (scale - min o scale).toNat)
    have hr := digits_one_zeros (o - min o scale).toNat
    have hrn : ('1' :: List.replicate (o - min o scale).toNat '0') ≠ [] := by simp
    have hln : ds ++ List.replicate (scale - min o scale).toNat '0' ≠ [] := by simp [hne]
    obtain ⟨neg', ds', h1, h2, h3, h4, h5⟩ := addSigned_spec neg false _ _ hdz hr hln hrn
    refine ⟨neg', ds', min o scale, ?_, h2, h3, ?_, rfl, ?_⟩
    · rw [← h1]; rfl
    · have h4' := congrArg (fun z : Int => (z : ℚ)) h4
      rw [natOf_append, natOf_zeros, natOf_one_zeros] at h4'
      simp only [List.length_replicate, Nat.add_zero] at h4'
      push_cast [apply_ite] at h4'
      have e1 : (10 : ℚ) ^ (scale - min o scale).toNat * 10 ^ (min o scale) = 10 ^ scale := by
        rw [← zpow_natCast, ← zpow_add₀ (by norm_num)]
        congr 1; omega
      have e2 : (10 : ℚ) ^ (o - min o scale).toNat * 10 ^ (min o scale) = 10 ^ o := by
        rw [← zpow_natCast, ← zpow_add₀ (by norm_num)]
        congr 1; omega
      have h6 : (if neg' = true then -1 else 1) * (natOf ds' : ℚ) =
          (if neg = true then -1 else 1) * ((natOf ds : ℚ) * 10 ^ (scale - min o scale).toNat) +
            10 ^ (o - min o scale).toNat := by
        cases neg <;> cases neg' <;> simp_all
      rw [h6, add_mul, e2]
      simp only [Option.elim]
      rw [← e1]; ring
    · intro hlead
      rcases h5 with h5 | ⟨hneg, h5⟩
      · rcases h5 with h5 | h5
        · left; rw [h5]; rfl
        · right; left; exact h5
      · subst hneg
        by_cases ho : o < scale
        · have em : min o scale = o := by omega
          rw [em, show (o - o).toNat = 0 by omega] at h5
          rcases hlead with hz | hz
          · right; right
            exact ⟨o, rfl, ho, by rw [hz]; rfl, rfl, h5⟩
          · right; left
            rw [h5]
            apply addAbs_head _ _ (by rw [em] at hdz; exact hdz) (digits_one_zeros 0)
            left
            refine ⟨by simp [hne], by rw [List.head?_append_of_ne_nil _ hne]; exact hz, ?_⟩
            have : 0 < ds.length := List.length_pos_iff.2 hne
            simp; omega
        · right; left
          have em : min o scale = scale := by omega
          rw [h5]
          apply addAbs_head _ _ hdz hr
          rcases hlead with hz | hz
          · right
            refine ⟨by simp, by simp, ?_⟩
            rw [hz, em]; simp
          · by_cases hlen : ('1' :: List.replicate (o - min o scale).toNat '0').length ≤
                (ds ++ List.replicate (scale - min o scale).toNat '0').length
            · left
              exact ⟨hln, by rw [List.head?_append_of_ne_nil _ hne]; exact hz, hlen⟩
            · right
              exact ⟨by simp, by simp, by omega⟩

theorem addAbs_zero_one (ds : List Char) (k : Nat) (hd : Digits ds) (hne : ds ≠ []) (hk : 0 < k)
    (hz : natOf ds = 0) :
    natOf (addAbs (ds ++ List.replicate k '0') ['1']) = 1 ∧
      (addAbs (ds ++ List.replicate k '0') ['1']).length = ds.length + k := by
  have hdz := Digits.append hd (Digits.zeros k)
  obtain ⟨h1, h2⟩ := addAbs_spec (ds ++ List.replicate k '0') ['1']
  have hv : natOf (addAbs (ds ++ List.replicate k '0') ['1']) = 1 := by
    rw [h1, natOf_append, natOf_zeros, hz, Nat.zero_mul]; rfl
  refine ⟨hv, ?_⟩
  have hlen := (addLoop_length ((ds ++ List.replicate k '0').reverse.map digitVal)
    (['1'].reverse.map digitVal) 0).1
  have hlen' : ds.length + k ≤ (addAbs (ds ++ List.replicate k '0') ['1']).length := by
    simp only [addAbs, List.length_reverse, List.length_map]
    simp at hlen ⊢; omega
  rcases addAbs_carry _ ['1'] hdz (digits_one_zeros 0) with hc | hc
  · have : 0 < ds.length := List.length_pos_iff.2 hne
    simp at hc
    omega
  · have := natOf_ge _ h2 (by intro he; rw [he] at hc; simp at hc) (by rw [hc]; decide)
    rw [hv] at this
    have : 0 < ds.length := List.length_pos_iff.2 hne
    have h10 : 10 ^ 1 ≤ 10 ^ ((addAbs (ds ++ List.replicate k '0') ['1']).length - 1) :=
      Nat.pow_le_pow_right (by omega) (by omega)
    omega

theorem head_zeros_of_one (ds : List Char) (hd : Digits ds) (hv : natOf ds = 1) (hl : 1 < ds.length) :
    ∃ c t, ds = '0' :: c :: t := by
  match ds with
  | [] => simp at hl
  | [_] => simp at hl
  | a :: b :: t =>
    refine ⟨b, t, ?_⟩
    by_cases ha : a = '0'
    · rw [ha]
    · have := natOf_ge (a :: b :: t) hd (by simp) (by simpa using ha)
      rw [hv] at this
      have h10 : 10 ^ 1 ≤ 10 ^ ((a :: b :: t).length - 1) := Nat.pow_le_pow_right (by omega) (by simp)
      omega

theorem canonical_head_zero (t : List Char) (c : Char) (h : Canonical ('0' :: c :: t)) : c = '.' := by
  obtain ⟨neg, ip, fp, hi, hf, ht, hc, _, _⟩ := h
  cases neg with
  | true => simp [decimalText, signText] at ht
  | false =>
    rcases hc with hc | hc
    · subst hc
      simp [decimalText, signText] at ht
      split at ht
      · simp at ht
      · simp at ht; exact ht.1
    · match ip with
      | [] => simp at hc
      | a :: ip =>
        simp [decimalText, signText] at ht hc
        exact absurd ht.1.symm hc

theorem digitText (n : Nat) (h : n < 10) : '0' ≤ Char.ofNat ('0'.toNat + n) ∧
    Char.ofNat ('0'.toNat + n) ≤ '9' ∧ (Char.ofNat ('0'.toNat + n)).toNat - '0'.toNat = n ∧
    (Char.ofNat ('0'.toNat + n) = '0' → n = 0) := by
  interval_cases n <;> decide

theorem decimal_spec (n : Nat) : decimal n ≠ [] ∧ Digits (decimal n) ∧ natOf (decimal n) = n ∧
    (decimal n = ['0'] ∨ (decimal n).head? ≠ some '0') := by
  induction n using Nat.strongRecOn with
  | _ n ih =>
    rw [decimal]
    split
    · rename_i h
      obtain ⟨a, b, c, d⟩ := digitText n h
      refine ⟨by simp, by intro x hx; simp at hx; subst hx; exact ⟨a, b⟩, by simpa [natOf] using c, ?_⟩
      by_cases h0 : n = 0
      · left; subst h0; rfl
      · right; simp; exact fun hc => h0 (d (by simpa using hc))
    · rename_i h
      obtain ⟨i1, i2, i3, i4⟩ := ih (n / 10) (by omega)
      obtain ⟨a, b, c, d⟩ := digitText (n % 10) (by omega)
      refine ⟨by simp, ?_, ?_, ?_⟩
      · intro x hx
        rcases List.mem_append.1 hx with hx | hx
        · exact i2 x hx
        · simp at hx; subst hx; exact ⟨a, b⟩
      · rw [natOf_append, i3]
        have : natOf [Char.ofNat ('0'.toNat + n % 10)] = n % 10 := by simpa [natOf] using c
        rw [this]
        simp; omega
      · right
        rw [List.head?_append_of_ne_nil _ i1]
        rcases i4 with i4 | i4
        · rw [i4] at i3
          have : natOf ['0'] = 0 := rfl
          omega
        · exact i4

theorem decimal_ne_nil (n : Nat) : decimal n ≠ [] := (decimal_spec n).1
theorem decimal_digits (n : Nat) : Digits (decimal n) := (decimal_spec n).2.1
theorem natOf_decimal (n : Nat) : natOf (decimal n) = n := (decimal_spec n).2.2.1
theorem decimal_head (n : Nat) : decimal n = ['0'] ∨ (decimal n).head? ≠ some '0' :=
  (decimal_spec n).2.2.2

theorem canonical_of {text : List Char} (neg : Bool) (ds : List Char) (e : Int)
    (h1 : text = applyPower10 (signText neg ++ ds) e) (h2 : Digits ds) (h3 : ds ≠ [])
    (h : natOf ds = 0 ∨ ds.head? ≠ some '0' ∨ (e < 0 ∧ ds.length ≤ e.natAbs + 1)) :
    Canonical text := by
  obtain ⟨ip, fp, p1, p2, p3, p4, p5, p6, p7⟩ := applyPower10_spec neg ds e h2 h3
  refine ⟨_, ip, fp, p3, p4, h1.trans p1, ?_, p5, ?_⟩
  · rcases p7 h with h | h
    · exact Or.inl h
    · right
      match ip, p2 with
      | c :: t, _ => simpa using h
  · intro hn hz
    simp at hn
    rw [hz] at p6
    have : (natOf ds : ℚ) * 10 ^ e ≠ 0 :=
      mul_ne_zero (by exact_mod_cast hn.2) (zpow_ne_zero _ (by norm_num))
    apply this
    rw [← p6]; simp

theorem scaledDecimal_zero (scale o : Int) (ho : o < scale) :
    scaledDecimal ['0'] scale (some o) =
      applyPower10 (addAbs ('0' :: List.replicate (scale - o).toNat '0') ['1']) o := by
  have em : min o scale = o := by omega
  have hz : Digits ('0' :: List.replicate (scale - o).toNat '0') := Digits.zeros ((scale - o).toNat + 1)
  have h1 := splitSign_eq false ('0' :: List.replicate (scale - o).toNat '0') (by simp) hz
  have h2 := splitSign_eq false ['1'] (by simp) (digits_one_zeros 0)
  simp only [signText, Bool.false_eq_true, if_false, List.nil_append] at h1 h2
  unfold scaledDecimal
  have h3 : splitSign ['0'] = (false, ['0']) := rfl
  rw [h3]
  simp only [em, Int.sub_self, Int.toNat_zero, List.replicate_zero, Bool.false_eq_true, if_false,
    List.singleton_append]
  unfold addSignedDecimalIntegers
  rw [h1, h2]
  simp

theorem scaledDecimal_zero_text (scale o : Int) (ho : o < scale) (hs : 1 ≤ scale) :
    ∃ c t, scaledDecimal ['0'] scale (some o) = '0' :: c :: t ∧ c ≠ '.' := by
  rw [scaledDecimal_zero scale o ho]
  have hd0 : Digits ['0'] := Digits.zeros 1
  obtain ⟨hv, hlen⟩ := addAbs_zero_one ['0'] (scale - o).toNat hd0 (by simp) (by omega) rfl
  have hd := (addAbs_spec (['0'] ++ List.replicate (scale - o).toNat '0') ['1']).2
  rw [List.singleton_append] at hv hlen hd
  generalize addAbs ('0' :: List.replicate (scale - o).toNat '0') ['1'] = ds at *
  obtain ⟨c, t, rfl⟩ := head_zeros_of_one ds hd hv (by rw [hlen]; simp; omega)
  have hc := hd c (by simp)
  refine ⟨c, ?_⟩
  have hcd : c ≠ '.' := by rintro rfl; revert hc; decide
  have hsp := splitSign_eq false ('0' :: c :: t) (by simp) hd
  simp only [signText, Bool.false_eq_true, if_false, List.nil_append] at hsp
  unfold applyPower10
  rw [hsp]
  simp only
  rw [if_neg (by rw [all_zero_iff _ hd]; omega)]
  simp only [Bool.false_and, Bool.false_eq_true, if_false]
  by_cases he : 0 ≤ o
  · rw [if_pos he, trimFraction_integer _ (Digits.append hd (Digits.zeros _))]
    exact ⟨_, rfl, hcd⟩
  · simp at hlen
    rw [if_neg he, if_pos (by simp; omega)]
    obtain ⟨k, fp', -, -, h3⟩ := trimFraction_spec
      (('0' :: c :: t).take (('0' :: c :: t).length - o.natAbs))
      (('0' :: c :: t).drop (('0' :: c :: t).length - o.natAbs))
      (fun x hx => hd x (List.mem_of_mem_drop hx))
    rw [h3]
    obtain ⟨n, hn⟩ : ∃ n, ('0' :: c :: t).length - o.natAbs = n + 2 :=
      ⟨('0' :: c :: t).length - o.natAbs - 2, by simp; omega⟩
    rw [hn]
    exact ⟨_, rfl, hcd⟩

end MBus
