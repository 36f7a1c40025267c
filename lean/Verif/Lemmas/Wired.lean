import Verif.Lemmas.Base
import Verif.Spec.Wired
/-! Helper lemmas for the wired link layer. -/
namespace MBus

theorem foldl_add_eq (l : List UInt8) (acc : UInt8) :
    l.foldl (fun acc x => acc + x) acc = acc + Spec.checksum l := by
  induction l generalizing acc with
  | nil => simp [Spec.checksum]
  | cons b l ih =>
    simp only [List.foldl_cons, ih]
    simp [Spec.checksum, UInt8.ofNat_add, UInt8.add_assoc]

theorem foldl_zero_eq (l : List UInt8) :
    l.foldl (fun acc x => acc + x) 0 = Spec.checksum l := by
  simp [foldl_add_eq]

theorem checksum_cons (b : UInt8) (l : List UInt8) :
    Spec.checksum (b :: l) = b + Spec.checksum l := by
  simp [Spec.checksum, UInt8.ofNat_add]

theorem checksum_append (l m : List UInt8) :
    Spec.checksum (l ++ m) = Spec.checksum l + Spec.checksum m := by
  induction l with
  | nil => simp [Spec.checksum]
  | cons b l ih => simp [checksum_cons, ih, UInt8.add_assoc]

theorem validateChecksum_append (cfg : Cfg) (body : List UInt8) (cs st : UInt8) :
    validateChecksum cfg (body ++ [cs, st]) =
      if cs = Spec.checksum body then .ok ()
      else .err (.wrongChecksum cs (Spec.checksum body)) := by
  simp [validateChecksum, usizeSub, sliceTo?, foldl_zero_eq]

theorem validateChecksum_nil (cfg : Cfg) :
    validateChecksum cfg [] = if cfg.overflowChecks then .panic else .err .lengthShort := by
  cases h : cfg.overflowChecks <;> simp [validateChecksum, usizeSub, h]

theorem validateChecksum_one (cfg : Cfg) (x : UInt8) :
    validateChecksum cfg [x] = if cfg.overflowChecks then .panic else .err .lengthShort := by
  cases h : cfg.overflowChecks <;> simp [validateChecksum, usizeSub, h]

theorem functionTryFrom_iff : ∀ (c : UInt8) (fn : Function),
    Function.tryFrom c = .ok fn ↔ Spec.FunctionCode c fn := by
  intro c fn
  constructor
  · intro h
    unfold Function.tryFrom at h
    split at h <;> first | (cases h; constructor) | cases h
  · intro h; cases h <;> rfl

theorem functionTryFrom_ne_panic (c : UInt8) : Function.tryFrom c ≠ .panic := by
  unfold Function.tryFrom; split <;> simp

theorem addressOf_eq : ∀ a : UInt8, Address.ofByte a = Spec.addressOf a := by
  decide +kernel

open Spec

/-- Behaviour of the parser on everything that starts with `68` and has at least six bytes. -/
theorem tryFrom_68 (cfg : Cfg) (b1 b2 b3 : UInt8) (body : List UInt8) (cs st : UInt8) :
    WiredFrame.tryFrom cfg (0x68 :: b1 :: b2 :: b3 :: (body ++ [cs, st])) =
      if cs = checksum body then
        if b1 ≠ b2 ∨ body.length + 6 ≠ b1.toNat + 6 then .err .wrongLengthIndication
        else if st ≠ 0x16 then .err .invalidStopByte
        else match body with
          | [] => (match Function.tryFrom cs with
            | .ok _ => .err .lengthShort
            | .err e => .err e
            | .panic => .panic)
          | [c] => (match Function.tryFrom c with
            | .ok _ => .err .lengthShort
            | .err e => .err e
            | .panic => .panic)
          | c :: a :: payload => (match Function.tryFrom c with
            | .ok fn => if c = 0x53 then .ok (.controlFrame fn (Address.ofByte a) payload)
                else .ok (.longFrame fn (Address.ofByte a) payload)
            | .err e => .err e
            | .panic => .panic)
      else .err (.wrongChecksum cs (checksum body)) := by
  have hlast : (0x68 :: b1 :: b2 :: b3 :: (body ++ [cs, st])).getLast? = some st := by
    rw [show (0x68 :: b1 :: b2 :: b3 :: (body ++ [cs, st]))
      = (0x68 :: b1 :: b2 :: b3 :: (body ++ [cs])) ++ [st] by simp]
    exact List.getLast?_concat
  unfold WiredFrame.tryFrom
  simp only [hlast]
  simp [sliceFrom?, validateChecksum_append]
  by_cases h : cs = checksum body
  · simp only [h, if_true, Res.bind_ok]
    by_cases h2 : ¬ b1 = b2 ∨ ¬ body.length = b1.toNat
    · simp only [if_pos h2]
    · simp only [if_neg h2]
      by_cases h3 : st = 0x16
      · subst h3
        rcases body with _ | ⟨c, _ | ⟨a, payload⟩⟩
        · simp [slice?]
          cases Function.tryFrom (checksum []) <;> simp
        · simp [slice?]
          cases Function.tryFrom c <;> simp
        · simp [slice?]
          cases hf : Function.tryFrom c <;> simp
      · simp [h3]
  · simp [h]

/-- Behaviour of the parser on everything that starts with `10` and has at least three bytes. -/
theorem tryFrom_10 (cfg : Cfg) (body : List UInt8) (cs st : UInt8) :
    WiredFrame.tryFrom cfg (0x10 :: (body ++ [cs, st])) =
      if cs = checksum body then
        match body with
        | [c, a] => if st = 0x16 then (match Function.tryFrom c with
            | .ok fn => .ok (.shortFrame fn (Address.ofByte a))
            | .err e => .err e
            | .panic => .panic) else .err .lengthShort
        | _ => .err .lengthShort
      else .err (.wrongChecksum cs (checksum body)) := by
  have hlast : (0x10 :: (body ++ [cs, st])).getLast? = some st := by
    rw [show (0x10 :: (body ++ [cs, st])) = (0x10 :: (body ++ [cs])) ++ [st] by simp]
    exact List.getLast?_concat
  unfold WiredFrame.tryFrom
  simp only [hlast]
  have hs : sliceFrom? (0x10 :: (body ++ [cs, st])) 1 = some (body ++ [cs, st]) := by
    simp [sliceFrom?]
  simp only [hs, Res.ofOption_some, Res.bind_ok, validateChecksum_append]
  by_cases h : cs = checksum body
  · simp only [h, if_true, Res.bind_ok]
    rcases body with _ | ⟨c, _ | ⟨a, _ | ⟨b, rest⟩⟩⟩
    · simp
    · simp
    · by_cases h3 : st = 0x16
      · simp [h3]; cases Function.tryFrom c <;> simp
      · simp [h3]
    · simp
  · simp only [h, if_false]
    rcases body with _ | ⟨c, _ | ⟨a, rest⟩⟩ <;> simp


theorem checksum_set_ne (l : List UInt8) (i : Nat) (v : UInt8) (h : i < l.length)
    (hv : v ≠ l[i]) : checksum (l.set i v) ≠ checksum l := by
  induction l generalizing i with
  | nil => simp at h
  | cons b l ih =>
    cases i with
    | zero =>
      simp only [List.set_cons_zero, checksum_cons]
      simp at hv
      intro he
      exact hv ((UInt8.add_left_inj _).1 he)
    | succ i =>
      simp only [List.set_cons_succ, checksum_cons]
      intro he
      exact ih i (by simpa using h) (by simpa using hv) ((UInt8.add_right_inj _).1 he)

end MBus
