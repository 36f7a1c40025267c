import Verif.Spec.Wireless
import Verif.Lemmas.Crc
import Verif.Lemmas.Core
namespace MBus
open Spec

theorem crc_exists (block : List UInt8) : ∃ hi lo, CrcOk block hi lo := by
  refine ⟨UInt8.ofNat ((crc16 block).toNat / 256), UInt8.ofNat ((crc16 block).toNat % 256), ?_⟩
  rw [← crc16_iff]
  apply UInt16.toNat_inj.mp
  rw [u16be, u16le_toNat]
  have := (crc16 block).toNat_lt
  simp
  omega

theorem append_two_inj {α} {a b : List α} {x y x' y' : α} (h : a ++ [x, y] = b ++ [x', y']) :
    a = b ∧ x = x' ∧ y = y' := by
  have hl : a.length = b.length := by
    have := congrArg List.length h; simp at this; exact this
  have := List.append_inj h hl
  simpa using this

theorem trailing_append (body : List UInt8) (hi lo : UInt8) :
    trailingFrameCrcStart (body ++ [hi, lo]) =
      if 10 ≤ body.length ∧ crc16 body = u16be hi lo then some body.length else none := by
  unfold trailingFrameCrcStart
  have h1 : ¬ (body ++ [hi, lo]).length < 2 := by simp
  have h2 : (body ++ [hi, lo]).length - 2 = body.length := by simp
  have h3 : (body ++ [hi, lo])[body.length]? = some hi := by simp
  have h4 : (body ++ [hi, lo])[body.length + 1]? = some lo := by
    rw [List.getElem?_append_right (by omega)]; simp
  have h5 : (body ++ [hi, lo]).take body.length = body := by simp
  rw [if_neg h1]
  simp only [h2, h3, h4, h5]
  by_cases hb : body.length < 10
  · rw [if_pos hb, if_neg (by omega)]
  · rw [if_neg hb]
    by_cases hc : crc16 body = u16be hi lo
    · rw [if_pos hc, if_pos ⟨by omega, hc⟩]
    · rw [if_neg hc, if_neg (fun h => hc h.2)]

theorem trailing_short (data : List UInt8) (h : data.length < 2) :
    trailingFrameCrcStart data = none := by
  unfold trailingFrameCrcStart; rw [if_pos h]

/-- The payload slice of an accepted frame. -/
theorem payload_slice (head body : List UInt8) (hh : head.length = 10) :
    ∃ payload, slice? (head ++ body) 10
      ((trailingFrameCrcStart (head ++ body)).getD (head ++ body).length) = some payload ∧
      WirelessPayload head body payload := by
  by_cases hb : 2 ≤ body.length
  · obtain ⟨p, hi, lo, rfl⟩ := exists_append_two body hb
    rw [← List.append_assoc, trailing_append]
    by_cases hc : crc16 (head ++ p) = u16be hi lo
    · rw [if_pos ⟨by simp; omega, hc⟩]
      refine ⟨p, ?_, .crc p hi lo rfl ((crc16_iff _ _ _).1 hc)⟩
      simp [slice?, hh, List.take_append, List.drop_append]
    · rw [if_neg (fun h => hc h.2)]
      refine ⟨p ++ [hi, lo], ?_, .plain ?_⟩
      · rw [Option.getD_none, slice?, if_pos (by simp; omega), List.take_length, List.append_assoc,
          ← hh, List.drop_left]
      · intro p' hi' lo' e hcrc
        obtain ⟨rfl, rfl, rfl⟩ := append_two_inj e
        exact hc ((crc16_iff _ _ _).2 hcrc)
  · refine ⟨body, ?_, .plain ?_⟩
    · have hn : trailingFrameCrcStart (head ++ body) = none := by
        unfold trailingFrameCrcStart
        by_cases h2 : (head ++ body).length < 2
        · rw [if_pos h2]
        · rw [if_neg h2]
          have : (head ++ body).length - 2 < 10 := by simp; omega
          simp only [this, if_true]
      rw [hn, Option.getD_none, slice?, if_pos (by simp; omega), List.take_length, ← hh,
        List.drop_left]
    · intro p hi lo e
      rw [e] at hb; simp at hb

theorem payload_unique {head body p p' : List UInt8} (h : WirelessPayload head body p)
    (h' : WirelessPayload head body p') : p = p' := by
  rcases h with ⟨_, hi, lo, hb, hc⟩ | hn <;> rcases h' with ⟨_, hi', lo', hb', hc'⟩ | hn'
  · rw [hb] at hb'; exact (append_two_inj hb').1
  · exact absurd hc (hn' _ _ _ hb)
  · exact absurd hc' (hn _ _ _ hb')
  · rfl

theorem deviceByte_eq (ci dev : UInt8) :
    (if 0xA0 ≤ ci && ci ≤ 0xAF then (dev >>> 4) &&& 0x0F else dev) = deviceByte ci dev := by
  unfold deviceByte
  have e : (0xA0 ≤ ci && ci ≤ 0xAF) = true ↔ (0xA0 ≤ ci.toNat ∧ ci.toNat ≤ 0xAF) := by
    simp [UInt8.le_iff_toNat_le]
  have e2 : (dev >>> 4) &&& 0x0F = UInt8.ofNat (hi dev) := by
    revert dev; decide +kernel
  by_cases h : 0xA0 ≤ ci.toNat ∧ ci.toNat ≤ 0xAF
  · rw [if_pos (e.2 h), if_pos h, e2]
  · rw [if_neg (fun h' => h (e.1 h')), if_neg h]

theorem manufacturerId_ok (m0 m1 d0 d1 d2 d3 ver dev ci : UInt8) (rest : List UInt8)
    (code : ManufacturerCode) (num : Nat) (hcode : ManufacturerCode.fromId (u16le m0 m1) = .ok code)
    (hnum : bcdHexDigitsToU32 d0 d1 d2 d3 = .ok num) :
    ManufacturerId.tryFrom (m0 :: m1 :: d0 :: d1 :: d2 :: d3 :: ver :: dev :: ci :: rest) =
      .ok ⟨code, num, DeviceType.fromByte (deviceByte ci dev), ver, false⟩ := by
  unfold ManufacturerId.tryFrom
  simp only [List.getElem?_cons_zero, List.getElem?_cons_succ, Res.ofOption_some, Res.bind_ok,
    hcode, hnum, Res.mapErr_ok, deviceByte_eq]

/-! ### Format A -/

theorem blockAt_iff (rest : List UInt8) (n : Nat) :
    BlockAt rest n ↔ ∃ h l, rest[n]? = some h ∧ rest[n + 1]? = some l ∧
      crc16 (rest.take n) = u16be h l := by
  constructor
  · rintro ⟨b, hi, lo, tail, rfl, rfl, hc⟩
    refine ⟨hi, lo, ?_, ?_, ?_⟩
    · simp
    · rw [List.append_assoc, List.getElem?_append_right (by omega)]; simp
    · rw [List.append_assoc, List.take_append_of_le_length (by omega), List.take_length]
      exact (crc16_iff _ _ _).2 hc
  · rintro ⟨h, l, h1, h2, hc⟩
    obtain ⟨hn, e1⟩ := List.getElem?_eq_some_iff.mp h1
    obtain ⟨hn2, e2⟩ := List.getElem?_eq_some_iff.mp h2
    refine ⟨rest.take n, h, l, rest.drop (n + 2), ?_, ?_, (crc16_iff _ _ _).1 hc⟩
    · simp; omega
    · rw [List.append_assoc]
      conv_lhs => rw [← List.take_append_drop n rest]
      rw [List.drop_eq_getElem_cons hn, List.drop_eq_getElem_cons hn2, e1, e2]
      rfl

theorem blockAt_length {rest : List UInt8} {n : Nat} (h : BlockAt rest n) :
    n + 2 ≤ rest.length := by
  obtain ⟨b, hi, lo, tail, rfl, rfl, _⟩ := h
  simp

/-- The block search finds the largest block. -/
theorem findBlock_spec (rest : List UInt8) (m : Nat) :
    (∃ n, findBlock rest m = some n ∧ 1 ≤ n ∧ n ≤ m ∧ BlockAt rest n ∧
        ∀ k, n < k → k ≤ m → ¬ BlockAt rest k) ∨
    (findBlock rest m = none ∧ ∀ k, 1 ≤ k → k ≤ m → ¬ BlockAt rest k) := by
  induction m with
  | zero => right; exact ⟨rfl, by intro k h1 h2; omega⟩
  | succ m ih =>
    by_cases hB : BlockAt rest (m + 1)
    · left
      obtain ⟨h, l, h1, h2, hc⟩ := (blockAt_iff _ _).1 hB
      have := blockAt_length hB
      refine ⟨m + 1, ?_, by omega, by omega, hB, by intro k; omega⟩
      unfold findBlock
      rw [if_neg (by omega)]
      simp only [h1, h2, hc, if_true]
    · have e : findBlock rest (m + 1) = findBlock rest m := by
        conv_lhs => unfold findBlock
        split
        · rfl
        · split
          · rename_i h l h1 h2
            split
            · rename_i hc
              exact absurd ((blockAt_iff _ _).2 ⟨h, l, h1, h2, hc⟩) hB
            · rfl
          · rfl
      rw [e]
      rcases ih with ⟨n, h1, h2, h3, h4, h5⟩ | ⟨h1, h2⟩
      · left
        refine ⟨n, h1, h2, by omega, h4, ?_⟩
        intro k hk hk2
        by_cases hkm : k = m + 1
        · rw [hkm]; exact hB
        · exact h5 k hk (by omega)
      · right
        refine ⟨h1, ?_⟩
        intro k hk hk2
        by_cases hkm : k = m + 1
        · rw [hkm]; exact hB
        · exact h2 k hk (by omega)

theorem copyAt_ok (a src c : List UInt8) (old : List UInt8) (h : old.length = src.length) :
    copyAt (a ++ old ++ c) a.length src = some (a ++ src ++ c) := by
  unfold copyAt
  rw [if_pos (by simp; omega)]
  congr 1
  rw [List.append_assoc a old c, List.take_left, ← h, List.append_assoc, List.append_assoc]
  congr 2
  rw [List.drop_append, List.drop_eq_nil_of_le (by omega)]
  simp

theorem copyAt_done (done buf src : List UInt8) (h : src.length ≤ buf.length) :
    copyAt (done ++ buf) done.length src = some (done ++ src ++ buf.drop src.length) := by
  have := copyAt_ok done src (buf.drop src.length) (buf.take src.length) (by simp; omega)
  rwa [List.append_assoc, List.take_append_drop] at this

theorem stripped_length {rest out : List UInt8} (h : Stripped rest out) :
    out.length ≤ rest.length := by
  induction h with
  | raw => exact le_refl _
  | block b tail out hi lo h1 h16 hc hmax ht ih => simp; omega

theorem stripped_sublist {rest out : List UInt8} (h : Stripped rest out) : out.Sublist rest := by
  induction h with
  | raw => exact List.Sublist.refl _
  | block b tail out hi lo h1 h16 hc hmax ht ih =>
    rw [List.append_assoc]
    exact List.Sublist.append (List.Sublist.refl _) (ih.trans (List.sublist_append_right _ _))

theorem stripLoop_spec (rest done buf : List UInt8) (hb : rest.length ≤ buf.length) :
    ∃ out, Stripped rest out ∧
      stripLoop rest done.length (done ++ buf) =
        .ok (done.length + out.length, done ++ out ++ buf.drop out.length) := by
  induction hn : rest.length using Nat.strong_induction_on generalizing rest done buf with
  | _ n ih =>
    unfold stripLoop
    by_cases h0 : 0 < rest.length
    · rw [dif_pos h0]
      by_cases h3 : rest.length < 3
      · rw [if_pos h3, copyAt_done _ _ _ hb]
        refine ⟨rest, .raw _ ?_, rfl⟩
        intro k hk _ hB
        have := blockAt_length hB
        omega
      · rw [if_neg h3]
        rcases findBlock_spec rest (min 16 (rest.length - 2)) with
          ⟨m, h1, h2, h4, hB, hmax⟩ | ⟨h1, h2⟩
        · have hmax' : ∀ k, m < k → k ≤ 16 → ¬ BlockAt rest k := by
            intro k hk hk2 hB'
            have := blockAt_length hB'
            exact hmax k hk (by omega) hB'
          obtain ⟨b, hi, lo, tail, hbl, hrest, hc⟩ := hB
          have ht : rest.take m = b := by
            rw [hrest, List.append_assoc, ← hbl, List.take_left]
          have hd : rest.drop (m + 2) = tail := by
            rw [hrest, ← hbl]
            have : b.length + 2 = (b ++ [hi, lo]).length := by simp
            rw [this, List.drop_left]
          have hlen : rest.length = m + 2 + tail.length := by
            rw [hrest]; simp; omega
          simp only [h1, ht, hd]
          rw [copyAt_done _ _ _ (by omega)]
          simp only []
          obtain ⟨out, hs, he⟩ := ih tail.length (by omega) tail (done ++ b) (buf.drop b.length)
            (by simp; omega) rfl
          refine ⟨b ++ out, ?_, ?_⟩
          · rw [hrest]
            refine .block b tail out hi lo (by omega) (by omega) hc ?_ hs
            rw [← hrest, hbl]; exact hmax'
          · have e1 : done.length + m = (done ++ b).length := by simp; omega
            rw [e1, he]
            simp [List.append_assoc, Nat.add_assoc]
        · simp only [h1]
          rw [copyAt_done _ _ _ hb]
          refine ⟨rest, .raw _ ?_, rfl⟩
          intro k hk hk2 hB
          have := blockAt_length hB
          exact h2 k hk (by omega) hB
    · rw [dif_neg h0]
      have : rest = [] := List.eq_nil_of_length_eq_zero (by omega)
      subst this
      refine ⟨[], .raw _ ?_, by simp⟩
      intro k hk _ hB
      have := blockAt_length hB
      simp at this

/-- Everything about one call, for a buffer that is large enough. -/
theorem strip_ok (head : List UInt8) (hi lo : UInt8) (rest output : List UInt8)
    (hh : head.length = 10) (hc : CrcOk head hi lo)
    (hout : (head ++ [hi, lo] ++ rest).length ≤ output.length) :
    ∃ tail, Stripped rest tail ∧
      stripFormatACrcs (head ++ [hi, lo] ++ rest) output =
        .ok (some (fixL (head ++ tail)),
          fixL (head ++ tail) ++ output.drop (head ++ tail).length) := by
  have hlen : (head ++ [hi, lo] ++ rest).length = 12 + rest.length := by simp; omega
  obtain ⟨tail, hs, he⟩ := stripLoop_spec rest head (output.drop 10) (by simp; omega)
  refine ⟨tail, hs, ?_⟩
  unfold stripFormatACrcs
  rw [if_neg (by omega)]
  have h1 : (head ++ [hi, lo] ++ rest)[10]? = some hi := by
    rw [List.append_assoc, List.getElem?_append_right (by omega)]; simp [hh]
  have h2 : (head ++ [hi, lo] ++ rest)[11]? = some lo := by
    rw [List.append_assoc, List.getElem?_append_right (by omega)]; simp [hh]
  have h3 : (head ++ [hi, lo] ++ rest).take 10 = head := by
    rw [List.append_assoc, ← hh, List.take_left]
  have h4 : (head ++ [hi, lo] ++ rest).drop 12 = rest := by
    have : 12 = (head ++ [hi, lo]).length := by simp; omega
    rw [this, List.drop_left]
  simp only [h1, h2, h3, h4, (crc16_iff _ _ _).2 hc, ne_eq, not_true, if_false]
  have hcp := copyAt_done [] output head (by omega)
  simp only [List.nil_append, List.length_nil] at hcp
  rw [hcp]
  rw [hh] at he ⊢
  simp only [he]
  rcases head with _ | ⟨x, t⟩
  · simp at hh
  have hts := stripped_length hs
  have e2 : copyAt (x :: t ++ tail ++ (output.drop 10).drop tail.length) 0
      [UInt8.ofNat (10 + tail.length - 1)] =
      some (fixL (x :: t ++ tail) ++ output.drop (x :: t ++ tail).length) := by
    have hl : 10 + tail.length - 1 = (t ++ tail).length := by simp at hh ⊢; omega
    have := copyAt_done [] (x :: t ++ tail ++ (output.drop 10).drop tail.length)
      [UInt8.ofNat (10 + tail.length - 1)] (by simp)
    simp only [List.nil_append, List.length_nil] at this
    rw [this]
    simp only [List.cons_append, fixL, hl, List.length_cons, List.drop_drop]
    simp at hh
    simp [hh]; omega
  rw [e2]
  simp only []
  congr 2
  have e3 : 10 + tail.length = (fixL (x :: t ++ tail)).length := by
    simp [fixL] at hh ⊢; omega
  rw [e3, List.take_left]

theorem stripped_of_blocks {body enc : List UInt8} (h : FormatABlocks body enc) :
    Stripped enc body := by
  induction h with
  | nil =>
    refine .raw _ ?_
    intro k hk _ hB
    have := blockAt_length hB
    simp at this
  | last b hi lo h0 h16 hc =>
    have := Stripped.block b [] [] hi lo h0 h16 hc (by
      intro n hn _ hB
      have := blockAt_length hB
      simp at this; omega) (.raw _ (by
        intro k hk _ hB
        have := blockAt_length hB
        simp at this))
    simpa using this
  | cons b body enc hi lo h16 hc ht ih =>
    exact Stripped.block b enc body hi lo (by omega) (by omega) hc (by intro n; omega) ih

theorem stripped_unique {rest a b : List UInt8} (ha : Stripped rest a) (hb : Stripped rest b) :
    a = b := by
  induction ha generalizing b with
  | raw rest h =>
    cases hb with
    | raw => rfl
    | block b tail out hi lo h1 h16 hc hmax ht =>
      exact absurd ⟨b, hi, lo, tail, rfl, rfl, hc⟩ (h _ h1 h16)
  | block c tail out hi lo h1 h16 hc hmax ht ih =>
    generalize hr : c ++ [hi, lo] ++ tail = rest at *
    cases hb with
    | raw _ h =>
      exact absurd ⟨c, hi, lo, tail, rfl, hr.symm, hc⟩ (h _ h1 h16)
    | block d tail' out' hi' lo' h1' h16' hc' hmax' ht' =>
      have hl : c.length = d.length := by
        rcases Nat.lt_trichotomy c.length d.length with h | h | h
        · exact absurd ⟨d, hi', lo', tail', rfl, rfl, hc'⟩ (hmax _ h h16')
        · exact h
        · exact absurd ⟨c, hi, lo, tail, rfl, hr.symm, hc⟩ (hmax' _ h h16)
      rw [List.append_assoc, List.append_assoc] at hr
      obtain ⟨rfl, hr⟩ := List.append_inj hr hl
      simp at hr
      obtain ⟨rfl, rfl, rfl⟩ := hr
      rw [ih ht']

end MBus
