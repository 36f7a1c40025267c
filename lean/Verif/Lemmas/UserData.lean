import Verif.Spec.UserData
import Verif.Lemmas.Core
import Mathlib.Data.List.Induction
/-! Helper lemmas about user data blocks. -/
namespace MBus
open Spec

theorem le16_eq (l h : UInt8) : le16 l h = u16le l h := by
  apply UInt16.toNat_inj.mp
  have := l.toNat_lt
  have := h.toNat_lt
  rw [u16le_toNat, le16]
  simp; omega

theorem allBcd_four (a b c d : UInt8) :
    AllBcd [a, b, c, d] ↔ IsBcd a ∧ IsBcd b ∧ IsBcd c ∧ IsBcd d := by
  simp [AllBcd]

theorem bcdHex_of (a b c d : UInt8) (h : AllBcd [a, b, c, d]) :
    bcdHexDigitsToU32 a b c d = .ok (bcdValue [a, b, c, d]) :=
  (bcdHex_ok a b c d _).2 ⟨(allBcd_four a b c d).1 h, rfl⟩

theorem bcdValue_append (l m : List UInt8) :
    bcdValue (l ++ m) = bcdValue l + 100 ^ l.length * bcdValue m := by
  induction l with
  | nil => simp [bcdValue]
  | cons b l ih =>
    simp only [List.cons_append, bcdValue, ih, List.length_cons, pow_succ]
    ring

theorem bcdLoop_err (o : UInt8 × UInt8 × UInt8 × UInt8) (high : List UInt8) (bad : UInt8)
    (low : List UInt8) (acc : Nat) (hb : ¬ IsBcd bad) (hh : AllBcd high) :
    bcdLoop o (high.reverse ++ bad :: low) acc =
      .err (.identificationNumberError o.1 o.2.1 o.2.2.1 o.2.2.2
        (100 ^ high.length * acc + bcdValue high)) := by
  induction high using List.reverseRecOn generalizing acc with
  | nil => simp [bcdLoop, isBcd_iff, hb, bcdValue]
  | append_singleton high b ih =>
    have hb' : IsBcd b := hh b (by simp)
    have hh' : AllBcd high := fun x hx => hh x (by simp [hx])
    rw [List.reverse_append, List.reverse_singleton, List.singleton_append, List.cons_append, bcdLoop]
    simp only [isBcd_iff, hb', decide_true, Bool.not_true, Bool.false_eq_true, if_false]
    rw [ih _ hh', bcdValue_append]
    simp only [bcdValue, lo_eq, hi_eq, List.length_append, List.length_singleton, pow_succ]
    congr 2
    ring

theorem bcdPrefix_unique (l : List UInt8) (n m : Nat) (h : bcdPrefix l n) (h' : bcdPrefix l m) :
    n = m := by
  obtain ⟨lo1, b1, h1, e1, hb1, ha1, rfl⟩ := h
  obtain ⟨lo2, b2, h2, e2, hb2, ha2, rfl⟩ := h'
  have key : ∀ (l1 : List UInt8) (x : UInt8) (k1 l2 : List UInt8) (y : UInt8) (k2 : List UInt8),
      l1 ++ x :: k1 = l2 ++ y :: k2 → ¬ IsBcd x → AllBcd k2 → l1.length ≤ l2.length := by
    intro l1 x k1 l2 y k2 e hx hk
    by_contra hlt
    have hlt : l2.length < l1.length := by omega
    have hm : (l1 ++ x :: k1)[l1.length]? = some x := by simp
    rw [e, List.getElem?_append_right (by omega),
      show l1.length - l2.length = (l1.length - l2.length - 1) + 1 by omega] at hm
    simp only [List.getElem?_cons_succ] at hm
    exact hx (hk x (List.mem_of_getElem? hm))
  have e := e1.symm.trans e2
  have hl := Nat.le_antisymm (key _ _ _ _ _ _ e hb1 ha2) (key _ _ _ _ _ _ e.symm hb2 ha1)
  obtain ⟨_, e'⟩ := List.append_inj e hl
  simp only [List.cons.injEq] at e'
  rw [e'.2]

theorem bcdPrefix_exists (l : List UInt8) (h : ¬ AllBcd l) : ∃ n, bcdPrefix l n := by
  induction l with
  | nil => simp [AllBcd] at h
  | cons b l ih =>
    by_cases hl : AllBcd l
    · refine ⟨bcdValue l, [], b, l, rfl, ?_, hl, rfl⟩
      intro hb
      exact h (by intro x hx; simp at hx; rcases hx with rfl | hx; exacts [hb, hl x hx])
    · obtain ⟨n, low, bad, high, e, h1, h2, h3⟩ := ih hl
      exact ⟨n, b :: low, bad, high, by simp [e], h1, h2, h3⟩

theorem bcdHex_err (a b c d : UInt8) (n : Nat) (h : bcdPrefix [a, b, c, d] n) :
    bcdHexDigitsToU32 a b c d = .err (.identificationNumberError a b c d n) := by
  obtain ⟨low, bad, high, e, hb, hh, rfl⟩ := h
  unfold bcdHexDigitsToU32
  rw [e, List.reverse_append, List.reverse_cons, List.append_assoc, List.singleton_append,
    bcdLoop_err _ _ _ _ _ hb hh]
  simp

/-- Which arm a control information byte leads to. -/
theorem ci_undecoded (ci : UInt8) (f : String) (h : (ci, f) ∈ undecoded) :
    ∃ c, ControlInformation.ofByte ci = .ok c ∧ c.unimplementedName = some f := by
  have key : ∀ ci : UInt8, ∀ p ∈ undecoded, p.1 = ci →
      (ControlInformation.ofByte ci).toOption.bind ControlInformation.unimplementedName =
        some p.2 := by
    decide +kernel
  have := key ci _ h rfl
  cases hc : ControlInformation.ofByte ci with
  | ok c => exact ⟨c, rfl, by simpa [hc] using this⟩
  | err e => simp [hc] at this
  | panic => simp [hc, Res.toOption] at this

theorem ci_unknown (ci : UInt8) (h : ¬ isDecoded ci) (h' : ∀ f, (ci, f) ∉ undecoded) :
    ControlInformation.ofByte ci = .err (.invalidControlInformation ci) := by
  have key : ∀ ci : UInt8, isDecoded ci ∨ ci ∈ undecoded.map Prod.fst ∨
      ControlInformation.ofByte ci = .err (.invalidControlInformation ci) := by
    decide +kernel
  rcases key ci with k | k | k
  · exact absurd k h
  · simp at k
    obtain ⟨f, hf⟩ := k
    exact absurd hf (h' f)
  · exact k

theorem ci_short (ci : UInt8) (h : isShortCi ci ∨ ci = 0xA0) :
    ControlInformation.ofByte ci = .ok .applicationLayerShortTransport := by
  have key : ∀ ci : UInt8, isShortCi ci ∨ ci = 0xA0 →
      ControlInformation.ofByte ci = .ok .applicationLayerShortTransport := by
    decide +kernel
  exact key ci h

theorem ci_long (r : Bool) : ControlInformation.ofByte (longCi r) =
    .ok (.responseWithVariableDataStructure r) := by
  cases r <;> decide +kernel

theorem ci_fixed (ci : UInt8) (h : ci = 0x73 ∨ ci = 0x77) :
    ControlInformation.ofByte ci = .ok .responseWithFixedDataStructure := by
  rcases h with rfl | rfl <;> decide +kernel

theorem tryFrom_reset (b : UInt8) (rest : List UInt8) :
    UserDataBlock.tryFrom (0x50 :: b :: rest) = .ok (.reset (ApplicationResetSubcode.ofByte b)) := by
  rw [UserDataBlock.tryFrom.eq_def]
  simp [show ControlInformation.ofByte 0x50 = .ok .resetAtApplicationLevel by decide +kernel]

theorem tryFrom_long (r : Bool) (rest : List UInt8) :
    UserDataBlock.tryFrom (longCi r :: rest) = UserDataBlock.parseLong r (longCi r :: rest) := by
  rw [UserDataBlock.tryFrom.eq_def]
  simp [ci_long]

theorem tryFrom_fixed (ci : UInt8) (rest : List UInt8) (h : ci = 0x73 ∨ ci = 0x77) :
    UserDataBlock.tryFrom (ci :: rest) = UserDataBlock.parseFixed (ci :: rest) := by
  rw [UserDataBlock.tryFrom.eq_def]
  simp [ci_fixed ci h]

theorem tryFrom_short (ci : UInt8) (rest : List UInt8) (h : isShortCi ci ∨ ci = 0xA0) :
    UserDataBlock.tryFrom (ci :: rest) = UserDataBlock.parseShort ci (ci :: rest) := by
  rw [UserDataBlock.tryFrom.eq_def]
  simp [ci_short ci h]

theorem tryFrom_noTpl (rest : List UInt8) :
    UserDataBlock.tryFrom (0x78 :: rest) = .ok (.noTpl none rest) := by
  rw [UserDataBlock.tryFrom.eq_def]
  simp [show ControlInformation.ofByte 0x78 = .ok .applicationLayerNoTransport by decide +kernel,
    slice?]

theorem tryFrom_ellI (cc acc : UInt8) (inner : List UInt8) :
    UserDataBlock.tryFrom (0x8C :: cc :: acc :: inner) =
      UserDataBlock.underEll ⟨cc, acc, none, none⟩ (UserDataBlock.tryFrom inner) := by
  rw [UserDataBlock.tryFrom.eq_def]
  simp [show ControlInformation.ofByte 0x8C = .ok .extendedLinkLayerI by decide +kernel]

theorem tryFrom_ellII (rest : List UInt8) :
    UserDataBlock.tryFrom (0x8D :: rest) = UserDataBlock.parseEll .formatII (0x8D :: rest) := by
  rw [UserDataBlock.tryFrom.eq_def]
  simp [show ControlInformation.ofByte 0x8D = .ok .extendedLinkLayerII by decide +kernel]

theorem tryFrom_ellIII (rest : List UInt8) :
    UserDataBlock.tryFrom (0x8E :: rest) = UserDataBlock.parseEll .formatIII (0x8E :: rest) := by
  rw [UserDataBlock.tryFrom.eq_def]
  simp [show ControlInformation.ofByte 0x8E = .ok .extendedLinkLayerIII by decide +kernel]

theorem tryFrom_undecoded (ci : UInt8) (rest : List UInt8) (f : String) (h : (ci, f) ∈ undecoded) :
    UserDataBlock.tryFrom (ci :: rest) = .err (.unimplemented f) := by
  obtain ⟨c, h1, h2⟩ := ci_undecoded ci f h
  rw [UserDataBlock.tryFrom.eq_def]
  simp only [h1]
  clear h h1
  cases c <;> cases h2 <;> rfl

theorem tryFrom_unknown (ci : UInt8) (rest : List UInt8) (h : ¬ isDecoded ci)
    (h' : ∀ f, (ci, f) ∉ undecoded) :
    UserDataBlock.tryFrom (ci :: rest) = .err (.invalidControlInformation ci) := by
  rw [UserDataBlock.tryFrom.eq_def]
  simp [ci_unknown ci h h']

theorem underEll_eq (ell : ExtendedLinkLayer) (blk : UserDataBlock) :
    UserDataBlock.underEll ell (.ok blk) =
      match withEll ell blk with
      | some b => .ok b
      | none => .err .missingControlInformation := by
  cases blk <;> rfl

theorem resetSubcode_eq (b : UInt8) (mk : UInt8 → ApplicationResetSubcode)
    (h : resetSubcodes[b.toNat % 16]? = some mk) : ApplicationResetSubcode.ofByte b = mk b := by
  have key : ∀ b : UInt8, (resetSubcodes[b.toNat % 16]?.map (fun mk => mk b)) =
      some (ApplicationResetSubcode.ofByte b) := by decide +kernel
  have := key b
  rw [h] at this
  simpa using this.symm

/-- Every described byte string is parsed as described. -/
theorem tryFrom_of_block (data : List UInt8) (blk : UserDataBlock) (h : Block data blk) :
    UserDataBlock.tryFrom data = .ok blk := by
  induction h with
  | reset b rest mk h => rw [tryFrom_reset, resetSubcode_eq b mk h]
  | fixed ci i0 i1 i2 i3 acc st u0 u1 a0 a1 a2 a3 b0 b1 b2 b3 rest hci hi ha hb =>
    rw [List.cons_append, tryFrom_fixed _ _ hci]
    simp [UserDataBlock.parseFixed, bcdHex_of _ _ _ _ hi, bcdHex_of _ _ _ _ ha,
      bcdHex_of _ _ _ _ hb, le16_eq, u16be]
  | long r i0 i1 i2 i3 m0 m1 version device acc st c0 c1 block hi =>
    rw [List.cons_append, tryFrom_long]
    have hi' : AllBcd [i3, i2, i1, i0] := by
      rw [allBcd_four] at *; tauto
    cases r <;>
      simp [UserDataBlock.parseLong, bcdHex_of _ _ _ _ hi, bcdHex_of _ _ _ _ hi', idBytes, le16_eq,
        ConfigurationField.fromBytes, slice?]
  | short ci acc st c0 c1 block hci =>
    rw [List.cons_append, tryFrom_short _ _ (Or.inl hci)]
    have hne : (ci == 0xA0) = false := by
      revert hci; revert ci; decide +kernel
    simp [UserDataBlock.parseShort, hne, le16_eq, ConfigurationField.fromBytes, slice?]
  | shortA0 x acc st c0 c1 block =>
    rw [List.cons_append, tryFrom_short _ _ (Or.inr rfl)]
    simp [UserDataBlock.parseShort, le16_eq, ConfigurationField.fromBytes, slice?]
  | noTpl block => exact tryFrom_noTpl block
  | ellI cc acc inner blk blk' _ hw ih =>
    rw [List.cons_append, List.cons_append, List.cons_append, List.nil_append, tryFrom_ellI, ih,
      underEll_eq, hw]
  | ellII cc acc s0 s1 s2 s3 r0 r1 block =>
    rw [List.cons_append, tryFrom_ellII]
    simp [UserDataBlock.parseEll, ExtendedLinkLayer.parse, sliceFrom?, le16_eq]
    rfl
  | ellIII cc acc m0 m1 a0 a1 a2 a3 a4 a5 s0 s1 s2 s3 r0 r1 block =>
    rw [List.cons_append, tryFrom_ellIII]
    simp [UserDataBlock.parseEll, ExtendedLinkLayer.parse, sliceFrom?, le16_eq]
    rfl

theorem ofOption_bind_err {ε α β : Type} {e : ε} {o : Option α} {f : α → Res ε β}
    (h : ∀ a, o = some a → f a = .err e) : (Res.ofOption e o >>= f) = .err e := by
  cases o with
  | none => rfl
  | some a => exact h a rfl

theorem ell_short (data : List UInt8) (fmt : EllFormat)
    (h : data.length < match fmt with | .formatI => 2 | .formatII => 8 | .formatIII => 16) :
    ExtendedLinkLayer.parse data fmt = .err .insufficientData := by
  cases fmt <;> unfold ExtendedLinkLayer.parse <;> simp only at h ⊢ <;> split <;>
    first | rfl | (simp only [List.length_cons] at h; omega)

theorem parseEll_short (data : List UInt8) (fmt : EllFormat)
    (h : data.length < match fmt with | .formatI => 3 | .formatII => 9 | .formatIII => 17) :
    UserDataBlock.parseEll fmt data = .err .insufficientData := by
  unfold UserDataBlock.parseEll
  refine ofOption_bind_err fun rest hr => ?_
  have hl : rest.length = data.length - 1 := by
    unfold sliceFrom? at hr
    split at hr <;> simp at hr
    simp [← hr]
  rw [ell_short rest fmt (by cases fmt <;> simp only at h ⊢ <;> omega)]
  rfl

/-- Every byte string described as rejected is rejected with that error. -/
theorem tryFrom_of_rejected (data : List UInt8) (e : AppError) (h : Rejected data e) :
    UserDataBlock.tryFrom data = .err e ∨
      ∃ cc acc inner, data = [0x8C, cc, acc] ++ inner ∧ e = .missingControlInformation ∧
        ∀ blk, Block inner blk → withEll ⟨cc, acc, none, none⟩ blk = none := by
  cases h with
  | empty => left; rw [UserDataBlock.tryFrom.eq_def]
  | unknown ci rest h h' => left; exact tryFrom_unknown ci rest h h'
  | undecoded ci f rest h => left; exact tryFrom_undecoded ci rest f h
  | truncated ci rest hd hl =>
    left
    rcases hd with hd | hd
    · simp only [List.mem_cons, List.not_mem_nil, or_false] at hd
      rcases hd with rfl | rfl | rfl | rfl | rfl | rfl | rfl | rfl | rfl | rfl
      · simp [minLength] at hl
        have hr : rest = [] := List.eq_nil_of_length_eq_zero (by omega)
        subst hr
        rw [UserDataBlock.tryFrom.eq_def]
        simp [show ControlInformation.ofByte 0x50 = .ok .resetAtApplicationLevel by decide +kernel]
      · rw [show (0x72 : UInt8) = longCi false from rfl, tryFrom_long]
        simp [minLength] at hl
        unfold UserDataBlock.parseLong
        refine ofOption_bind_err fun _ _ => ofOption_bind_err fun _ _ => ofOption_bind_err fun _ _ =>
          ofOption_bind_err fun _ h => ?_
        have := (List.getElem?_eq_some_iff.1 h).1
        simp at this
        omega
      · rw [show (0x76 : UInt8) = longCi true from rfl, tryFrom_long]
        simp [minLength] at hl
        unfold UserDataBlock.parseLong
        refine ofOption_bind_err fun _ _ => ofOption_bind_err fun _ _ => ofOption_bind_err fun _ _ =>
          ofOption_bind_err fun _ h => ?_
        have := (List.getElem?_eq_some_iff.1 h).1
        simp at this
        omega
      · rw [tryFrom_fixed _ _ (Or.inl rfl)]
        simp [minLength] at hl
        unfold UserDataBlock.parseFixed
        refine ofOption_bind_err fun _ _ => ofOption_bind_err fun _ _ => ofOption_bind_err fun _ _ =>
          ofOption_bind_err fun _ h => ?_
        have := (List.getElem?_eq_some_iff.1 h).1
        simp at this
        omega
      · rw [tryFrom_fixed _ _ (Or.inr rfl)]
        simp [minLength] at hl
        unfold UserDataBlock.parseFixed
        refine ofOption_bind_err fun _ _ => ofOption_bind_err fun _ _ => ofOption_bind_err fun _ _ =>
          ofOption_bind_err fun _ h => ?_
        have := (List.getElem?_eq_some_iff.1 h).1
        simp at this
        omega
      · simp [minLength] at hl
      · rw [tryFrom_short _ _ (Or.inl (Or.inl rfl))]
        simp [minLength] at hl
        unfold UserDataBlock.parseShort
        simp only
        refine ofOption_bind_err fun _ _ => ofOption_bind_err fun _ _ => ofOption_bind_err fun _ _ =>
          ofOption_bind_err fun _ h => ?_
        have := (List.getElem?_eq_some_iff.1 h).1
        simp at this
        omega
      · simp [minLength] at hl
        rw [UserDataBlock.tryFrom.eq_def]
        simp only [show ControlInformation.ofByte 0x8C = .ok .extendedLinkLayerI by decide +kernel]
        split
        · simp at hl; omega
        · rfl
      · rw [tryFrom_ellII]
        simp [minLength] at hl
        exact parseEll_short _ _ (by simp only [List.length_cons]; omega)
      · rw [tryFrom_ellIII]
        simp [minLength] at hl
        exact parseEll_short _ _ (by simp only [List.length_cons]; omega)
    · by_cases hA : ci = 0xA0
      · subst hA
        rw [tryFrom_short _ _ (Or.inr rfl)]
        simp [minLength] at hl
        unfold UserDataBlock.parseShort
        simp only
        refine ofOption_bind_err fun _ _ => ofOption_bind_err fun _ _ => ofOption_bind_err fun _ _ =>
          ofOption_bind_err fun _ h => ?_
        have := (List.getElem?_eq_some_iff.1 h).1
        simp at this
        omega
      · have hne : ci.toNat ≠ 0xA0 := fun h => hA (UInt8.toNat_inj.mp h)
        rw [tryFrom_short _ _ (Or.inl (Or.inr ⟨by omega, hd.2⟩))]
        have hm : minLength ci = 5 := by
          have key : ∀ ci : UInt8, 0xA0 ≤ ci.toNat ∧ ci.toNat ≤ 0xAF → ci ≠ 0xA0 →
              minLength ci = 5 := by decide +kernel
          exact key ci hd hA
        rw [hm] at hl
        have hne' : (ci == 0xA0) = false := by simpa using hA
        unfold UserDataBlock.parseShort
        simp only [hne']
        refine ofOption_bind_err fun _ _ => ofOption_bind_err fun _ _ => ofOption_bind_err fun _ _ =>
          ofOption_bind_err fun _ h => ?_
        have := (List.getElem?_eq_some_iff.1 h).1
        simp at this
        omega
  | longId r i0 i1 i2 i3 rest n e hb he hp =>
    left
    rw [List.cons_append, tryFrom_long]
    subst he
    cases r
    · simp [UserDataBlock.parseLong, bcdHex_err _ _ _ _ _ hp]
    · simp [UserDataBlock.parseLong, bcdHex_err _ _ _ _ _ hp]
  | longTruncated r i0 i1 i2 i3 rest hb hl =>
    left
    rw [List.cons_append, tryFrom_long]
    have hb' : AllBcd [i3, i2, i1, i0] := by rw [allBcd_four] at *; tauto
    unfold UserDataBlock.parseLong
    simp only [List.cons_append, List.getElem?_cons_succ, List.getElem?_cons_zero,
      Res.ofOption_some, Res.bind_ok, bcdHex_of _ _ _ _ hb, bcdHex_of _ _ _ _ hb', ite_self]
    cases r <;> simp only [if_true, if_false, Bool.false_eq_true, Res.bind_ok, List.nil_append] <;>
      (refine ofOption_bind_err fun _ _ => ofOption_bind_err fun _ _ => ofOption_bind_err fun _ _ =>
        ofOption_bind_err fun _ _ => ofOption_bind_err fun _ _ => ofOption_bind_err fun _ _ =>
        ofOption_bind_err fun _ _ => ofOption_bind_err fun _ h => ?_
       have := (List.getElem?_eq_some_iff.1 h).1
       omega)
  | fixedId ci i0 i1 i2 i3 rest n hci hb hp =>
    left
    rw [List.cons_append, tryFrom_fixed _ _ hci]
    simp [UserDataBlock.parseFixed, bcdHex_err _ _ _ _ _ hp]
  | fixedTruncated1 ci i0 i1 i2 i3 rest hci hb hl =>
    left
    rw [List.cons_append, tryFrom_fixed _ _ hci]
    unfold UserDataBlock.parseFixed
    simp only [List.cons_append, List.getElem?_cons_succ, List.getElem?_cons_zero, List.nil_append,
      Res.ofOption_some, Res.bind_ok, bcdHex_of _ _ _ _ hb]
    refine ofOption_bind_err fun _ _ => ofOption_bind_err fun _ _ => ofOption_bind_err fun _ _ =>
        ofOption_bind_err fun _ _ => ofOption_bind_err fun _ _ => ofOption_bind_err fun _ _ =>
        ofOption_bind_err fun _ _ => ofOption_bind_err fun _ h => ?_
    have := (List.getElem?_eq_some_iff.1 h).1
    omega
  | fixedCounter1 ci i0 i1 i2 i3 x0 x1 x2 x3 a0 a1 a2 a3 rest n hci hb ha hp =>
    left
    rw [List.cons_append, tryFrom_fixed _ _ hci]
    simp [UserDataBlock.parseFixed, bcdHex_of _ _ _ _ hb, bcdHex_err _ _ _ _ _ hp]
  | fixedTruncated2 ci i0 i1 i2 i3 x0 x1 x2 x3 a0 a1 a2 a3 rest hci hb ha hl =>
    left
    rw [List.cons_append, tryFrom_fixed _ _ hci]
    unfold UserDataBlock.parseFixed
    simp only [List.cons_append, List.getElem?_cons_succ, List.getElem?_cons_zero, List.nil_append,
      Res.ofOption_some, Res.bind_ok, bcdHex_of _ _ _ _ hb, bcdHex_of _ _ _ _ ha]
    refine ofOption_bind_err fun _ _ => ofOption_bind_err fun _ _ => ofOption_bind_err fun _ _ =>
        ofOption_bind_err fun _ h => ?_
    have := (List.getElem?_eq_some_iff.1 h).1
    omega
  | fixedCounter2 ci i0 i1 i2 i3 x0 x1 x2 x3 a0 a1 a2 a3 b0 b1 b2 b3 rest n hci hi ha hb hp =>
    left
    rw [List.cons_append, tryFrom_fixed _ _ hci]
    simp [UserDataBlock.parseFixed, bcdHex_of _ _ _ _ hi, bcdHex_of _ _ _ _ ha,
      bcdHex_err _ _ _ _ _ hp]
  | ellI cc acc inner h => right; exact ⟨cc, acc, inner, rfl, rfl, h⟩

/-- A list is short or starts with `n` given bytes. -/
theorem split4 (l : List UInt8) (h : 4 ≤ l.length) : ∃ a b c d t, l = a :: b :: c :: d :: t := by
  match l, h with
  | a :: b :: c :: d :: t, _ => exact ⟨a, b, c, d, t, rfl⟩

/-- Every byte string is described by one of the two specifications. -/
theorem block_or_rejected (data : List UInt8) :
    (∃ blk, Block data blk) ∨ (∃ e, Rejected data e) := by
  match data with
  | [] => exact Or.inr ⟨_, .empty⟩
  | ci :: rest =>
    by_cases hd : isDecoded ci
    · by_cases hl : rest.length + 1 < minLength ci
      · exact Or.inr ⟨_, .truncated ci rest hd hl⟩
      · have hlong : ∀ r, ci = longCi r →
            (∃ blk, Block (ci :: rest) blk) ∨ (∃ e, Rejected (ci :: rest) e) := by
          rintro r rfl
          have h4 : 4 ≤ rest.length := by cases r <;> simp [minLength, longCi] at hl <;> omega
          obtain ⟨i0, i1, i2, i3, t, rfl⟩ := split4 rest h4
          by_cases hb : AllBcd [i0, i1, i2, i3]
          · by_cases ht : t.length < 8
            · exact Or.inr ⟨_, .longTruncated r i0 i1 i2 i3 t hb ht⟩
            · obtain ⟨m0, m1, v, d, t, rfl⟩ := split4 t (by omega)
              simp only [List.length_cons] at ht
              obtain ⟨acc, st, c0, c1, t, rfl⟩ := split4 t (by omega)
              exact Or.inl ⟨_, .long r i0 i1 i2 i3 m0 m1 v d acc st c0 c1 t hb⟩
          · have hb' : ¬ AllBcd (idBytes r i0 i1 i2 i3) := by
              cases r
              · exact hb
              · simp only [idBytes, if_true]; rw [allBcd_four] at *; tauto
            obtain ⟨n, hn⟩ := bcdPrefix_exists _ hb'
            exact Or.inr ⟨_, .longId r i0 i1 i2 i3 t n _ hb rfl hn⟩
        have hfixed : ci = 0x73 ∨ ci = 0x77 →
            (∃ blk, Block (ci :: rest) blk) ∨ (∃ e, Rejected (ci :: rest) e) := by
          intro hci
          have h4 : 4 ≤ rest.length := by rcases hci with rfl | rfl <;> simp [minLength] at hl <;> omega
          obtain ⟨i0, i1, i2, i3, t, rfl⟩ := split4 rest h4
          by_cases hb : AllBcd [i0, i1, i2, i3]
          · by_cases ht : t.length < 8
            · exact Or.inr ⟨_, .fixedTruncated1 ci i0 i1 i2 i3 t hci hb ht⟩
            · obtain ⟨x0, x1, x2, x3, t, rfl⟩ := split4 t (by omega)
              simp only [List.length_cons] at ht
              obtain ⟨a0, a1, a2, a3, t, rfl⟩ := split4 t (by omega)
              by_cases ha : AllBcd [a0, a1, a2, a3]
              · by_cases ht2 : t.length < 4
                · exact Or.inr ⟨_, .fixedTruncated2 ci i0 i1 i2 i3 x0 x1 x2 x3 a0 a1 a2 a3 t hci hb ha ht2⟩
                · obtain ⟨b0, b1, b2, b3, t, rfl⟩ := split4 t (by omega)
                  by_cases hb2 : AllBcd [b0, b1, b2, b3]
                  · exact Or.inl ⟨_, .fixed ci i0 i1 i2 i3 x0 x1 x2 x3 a0 a1 a2 a3 b0 b1 b2 b3 t hci
                      hb ha hb2⟩
                  · obtain ⟨n, hn⟩ := bcdPrefix_exists _ hb2
                    exact Or.inr ⟨_, .fixedCounter2 ci i0 i1 i2 i3 x0 x1 x2 x3 a0 a1 a2 a3 b0 b1 b2 b3
                      t n hci hb ha hb2 hn⟩
              · obtain ⟨n, hn⟩ := bcdPrefix_exists _ ha
                exact Or.inr ⟨_, .fixedCounter1 ci i0 i1 i2 i3 x0 x1 x2 x3 a0 a1 a2 a3 t n hci hb ha
                  hn⟩
          · obtain ⟨n, hn⟩ := bcdPrefix_exists _ hb
            exact Or.inr ⟨_, .fixedId ci i0 i1 i2 i3 t n hci hb hn⟩
        have hshort : isShortCi ci → minLength ci = 5 →
            (∃ blk, Block (ci :: rest) blk) ∨ (∃ e, Rejected (ci :: rest) e) := by
          intro hci hm
          obtain ⟨a, b, c, d, t, rfl⟩ := split4 rest (by omega)
          exact Or.inl ⟨_, .short ci a b c d t hci⟩
        rcases hd with hd | hd
        · simp only [List.mem_cons, List.not_mem_nil, or_false] at hd
          rcases hd with rfl | h | h | h | h | rfl | rfl | rfl | rfl | rfl
          · simp [minLength] at hl
            match rest, hl with
            | b :: t, _ =>
              have hm : ∃ mk, resetSubcodes[b.toNat % 16]? = some mk := by
                have key : ∀ b : UInt8, (resetSubcodes[b.toNat % 16]?).isSome := by decide +kernel
                exact Option.isSome_iff_exists.1 (key b)
              obtain ⟨mk, hmk⟩ := hm
              exact Or.inl ⟨_, .reset b t mk hmk⟩
          · exact hlong false h
          · exact hlong true h
          · exact hfixed (Or.inl h)
          · exact hfixed (Or.inr h)
          · exact Or.inl ⟨_, .noTpl rest⟩
          · exact hshort (Or.inl rfl) rfl
          · simp [minLength] at hl
            match rest, hl with
            | cc :: acc :: inner, _ =>
              by_cases hw : ∀ blk, Block inner blk → withEll ⟨cc, acc, none, none⟩ blk = none
              · exact Or.inr ⟨_, .ellI cc acc inner hw⟩
              · push Not at hw
                obtain ⟨blk, h1, h2⟩ := hw
                obtain ⟨blk', h3⟩ := Option.ne_none_iff_exists'.1 h2
                exact Or.inl ⟨_, .ellI cc acc inner blk blk' h1 h3⟩
          · simp [minLength] at hl
            obtain ⟨a, b, c, d, t, rfl⟩ := split4 rest (by omega)
            simp only [List.length_cons] at hl
            obtain ⟨e, f, g, h, t, rfl⟩ := split4 t (by omega)
            exact Or.inl ⟨_, .ellII a b c d e f g h t⟩
          · simp [minLength] at hl
            obtain ⟨a, b, c, d, t, rfl⟩ := split4 rest (by omega)
            simp only [List.length_cons] at hl
            obtain ⟨e, f, g, h, t, rfl⟩ := split4 t (by omega)
            simp only [List.length_cons] at hl
            obtain ⟨a1, b1, c1, d1, t, rfl⟩ := split4 t (by omega)
            simp only [List.length_cons] at hl
            obtain ⟨e1, f1, g1, h1, t, rfl⟩ := split4 t (by omega)
            exact Or.inl ⟨_, .ellIII a b c d e f g h a1 b1 c1 d1 e1 f1 g1 h1 t⟩
        · by_cases hA : ci = 0xA0
          · subst hA
            simp [minLength] at hl
            match rest, hl with
            | x :: rest, hl =>
              simp only [List.length_cons] at hl
              obtain ⟨a, b, c, d, t, rfl⟩ := split4 rest (by omega)
              exact Or.inl ⟨_, .shortA0 x a b c d t⟩
          · have key : ∀ ci : UInt8, 0xA0 ≤ ci.toNat ∧ ci.toNat ≤ 0xAF → ci ≠ 0xA0 →
              isShortCi ci ∧ minLength ci = 5 := by decide +kernel
            exact hshort (key ci hd hA).1 (key ci hd hA).2
    · by_cases hu : ∃ f, (ci, f) ∈ undecoded
      · obtain ⟨f, hf⟩ := hu
        exact Or.inr ⟨_, .undecoded ci f rest hf⟩
      · push Not at hu
        exact Or.inr ⟨_, .unknown ci rest hd hu⟩

theorem tryFrom_iff (data : List UInt8) :
    (∀ blk, UserDataBlock.tryFrom data = .ok blk ↔ Block data blk) ∧
      (∀ e, UserDataBlock.tryFrom data = .err e ↔ Rejected data e) := by
  induction hn : data.length using Nat.strong_induction_on generalizing data with
  | _ n ih =>
  have hrej : ∀ e, Rejected data e → UserDataBlock.tryFrom data = .err e := by
    intro e he
    rcases tryFrom_of_rejected data e he with h | ⟨cc, acc, inner, rfl, rfl, h⟩
    · exact h
    · rw [List.cons_append, List.cons_append, List.cons_append, List.nil_append, tryFrom_ellI]
      obtain ⟨h1, h2⟩ := ih inner.length (by simp at hn; omega) inner rfl
      rcases block_or_rejected inner with ⟨blk, hb⟩ | ⟨e, he⟩
      · rw [(h1 blk).2 hb, underEll_eq, h blk hb]
      · rw [(h2 e).2 he]
        rfl
  constructor
  · intro blk
    refine ⟨fun h => ?_, tryFrom_of_block data blk⟩
    rcases block_or_rejected data with ⟨blk', hb⟩ | ⟨e, he⟩
    · have := tryFrom_of_block data blk' hb
      rw [h] at this
      cases this
      exact hb
    · rw [hrej e he] at h
      cases h
  · intro e
    refine ⟨fun h => ?_, hrej e⟩
    rcases block_or_rejected data with ⟨blk', hb⟩ | ⟨e', he⟩
    · rw [tryFrom_of_block data blk' hb] at h
      cases h
    · have := hrej e' he
      rw [h] at this
      cases this
      exact he

theorem tryFrom_ne_panic (data : List UInt8) : UserDataBlock.tryFrom data ≠ .panic := by
  obtain ⟨h1, h2⟩ := tryFrom_iff data
  rcases block_or_rejected data with ⟨blk, hb⟩ | ⟨e, he⟩
  · rw [(h1 blk).2 hb]; simp
  · rw [(h2 e).2 he]; simp

end MBus
