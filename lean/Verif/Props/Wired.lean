import Verif.Lemmas.Wired
/-!
# Properties of the wired link layer: C01-C06
-/
namespace MBus
open Spec

/-- A debug build without cargo features, used in the concrete examples. -/
def cfgDebug : Cfg := ⟨true, false⟩
/-- A release build without cargo features, used in the concrete examples. -/
def cfgRelease : Cfg := ⟨false, false⟩

/-- A telegram from the repository's tests (a `RspUd` long frame with a 2 byte payload). -/
def sampleLong : List UInt8 := [0x68, 0x04, 0x04, 0x68, 0x08, 0x01, 0x72, 0x05, 0x80, 0x16]

/-! ## C01 -/

/-- C01: the parser accepts exactly the telegrams of the grammar and returns their content. -/
theorem C01_wired_accepts_exactly_telegrams (cfg : Cfg) (data : List UInt8) (f : WiredFrame) :
    WiredFrame.tryFrom cfg data = .ok f ↔ WiredTelegram data f := by
  constructor
  · intro h
    rcases data with _ | ⟨b0, rest⟩
    · simp [WiredFrame.tryFrom] at h
    by_cases h0 : b0 = 0xE5
    · subst h0
      simp [WiredFrame.tryFrom] at h
      subst h; exact .single _
    rcases rest with _ | ⟨b1, _ | ⟨b2, rest⟩⟩
    · simp [WiredFrame.tryFrom, h0] at h
    · simp [WiredFrame.tryFrom, h0] at h
    by_cases h68 : b0 = 0x68
    · subst h68
      rcases rest with _ | ⟨b3, rest⟩
      · simp [WiredFrame.tryFrom, sliceFrom?] at h
      by_cases hl : 2 ≤ rest.length
      · obtain ⟨body, cs, st, rfl⟩ := exists_append_two rest hl
        rw [tryFrom_68] at h
        split at h
        swap; · cases h
        rename_i hcs
        split at h
        · cases h
        rename_i hlen
        split at h
        · cases h
        rename_i hst
        simp at hlen hst
        obtain ⟨rfl, hlen⟩ := hlen
        subst hst hcs
        rcases body with _ | ⟨c, _ | ⟨a, payload⟩⟩
        · cases hf : Function.tryFrom (checksum []) <;> simp [hf] at h
        · cases hf : Function.tryFrom c <;> simp [hf] at h
        · cases hf : Function.tryFrom c with
          | err e => simp [hf] at h
          | panic => simp [hf] at h
          | ok fn =>
            simp only [hf, addressOf_eq] at h
            have hb := b1.toNat_lt
            have hL : UInt8.ofNat (payload.length + 2) = b1 := by
              simp at hlen; rw [hlen]; simp
            have hb : longFrameBytes b3 c a payload
              = 0x68 :: b1 :: b1 :: b3 :: (c :: a :: payload ++ [checksum (c :: a :: payload), 0x16]) := by
              simp [longFrameBytes, hL]
            have hpl : payload.length ≤ 253 := by simp at hlen; omega
            rw [← hb]
            split at h
            · rename_i hc
              subst hc
              have : fn = .sndUd false := by
                simp [Function.tryFrom] at hf; exact hf.symm
              subst this
              cases h
              exact .control _ _ _ hpl
            · rename_i hc
              cases h
              exact .long _ _ _ _ _ ((functionTryFrom_iff _ _).1 hf) hc hpl
      · rcases rest with _ | ⟨x, _ | ⟨y, rest⟩⟩
        · simp [WiredFrame.tryFrom, sliceFrom?, validateChecksum_nil] at h
          cases hc : cfg.overflowChecks <;> simp [hc] at h
        · simp [WiredFrame.tryFrom, sliceFrom?, validateChecksum_one] at h
          cases hc : cfg.overflowChecks <;> simp [hc] at h
        · simp at hl
    · by_cases h10 : b0 = 0x10
      · subst h10
        obtain ⟨body, cs, st, he⟩ := exists_append_two (b1 :: b2 :: rest) (by simp)
        rw [he] at h ⊢
        rw [tryFrom_10] at h
        split at h
        swap; · cases h
        rename_i hcs
        rcases body with _ | ⟨c, _ | ⟨a, _ | ⟨z, body⟩⟩⟩
        · simp at h
        · simp at h
        · simp only [] at h
          split at h
          swap; · cases h
          rename_i hst
          cases hf : Function.tryFrom c with
          | err e => simp [hf] at h
          | panic => simp [hf] at h
          | ok fn =>
            simp only [hf, addressOf_eq] at h
            cases h; subst hst hcs
            exact .short _ _ _ ((functionTryFrom_iff _ _).1 hf)
        · simp at h
      · simp [WiredFrame.tryFrom, h0, h68, h10] at h
  · intro h
    cases h with
    | single rest => simp [WiredFrame.tryFrom]
    | short c a fn hf =>
      have := tryFrom_10 cfg [c, a] (checksum [c, a]) 0x16
      simp only [(functionTryFrom_iff _ _).2 hf, addressOf_eq] at this
      simpa [shortFrameBytes] using this
    | long x c a payload fn hf hc hl =>
      have hL : (UInt8.ofNat (payload.length + 2)).toNat = payload.length + 2 := by
        simp; omega
      have := tryFrom_68 cfg (UInt8.ofNat (payload.length + 2)) (UInt8.ofNat (payload.length + 2)) x
        (c :: a :: payload) (checksum (c :: a :: payload)) 0x16
      simp only [(functionTryFrom_iff _ _).2 hf, addressOf_eq, hL] at this
      simpa [longFrameBytes, hc] using this
    | control x a payload hl =>
      have hL : (UInt8.ofNat (payload.length + 2)).toNat = payload.length + 2 := by
        simp; omega
      have := tryFrom_68 cfg (UInt8.ofNat (payload.length + 2)) (UInt8.ofNat (payload.length + 2)) x
        (0x53 :: a :: payload) (checksum (0x53 :: a :: payload)) 0x16
      simp only [addressOf_eq, hL] at this
      simpa [longFrameBytes, Function.tryFrom] using this

/-- Non-vacuity: a concrete telegram is accepted, one with a wrong stop byte is not. -/
example : WiredTelegram sampleLong
    (.longFrame (.rspUd false false) (.primary 1) [0x72, 0x05]) :=
  (C01_wired_accepts_exactly_telegrams cfgDebug _ _).1 (by decide)
example : ¬ ∃ f, WiredTelegram (sampleLong.dropLast ++ [0x17]) f := by
  rintro ⟨f, h⟩
  have := (C01_wired_accepts_exactly_telegrams cfgDebug _ _).2 h
  have h2 : WiredFrame.tryFrom cfgDebug (sampleLong.dropLast ++ [0x17])
    = .err .invalidStopByte := by decide
  rw [h2] at this; cases this

/-! ## C02 -/

/-- C02: a long frame built from a function code, address and payload of at most 253 bytes parses
back to exactly these. -/
theorem C02_wired_long_round_trip (cfg : Cfg) (c a : UInt8) (fn : Function) (payload : List UInt8)
    (hf : FunctionCode c fn) (hl : payload.length ≤ 253) :
    WiredFrame.tryFrom cfg (longFrameBytes 0x68 c a payload) =
      .ok (if c = 0x53 then .controlFrame fn (addressOf a) payload
        else .longFrame fn (addressOf a) payload) := by
  rw [C01_wired_accepts_exactly_telegrams]
  split
  · rename_i hc
    subst hc
    cases hf
    exact .control _ _ _ hl
  · rename_i hc
    exact .long _ _ _ _ _ hf hc hl

/-- C02 for short frames. -/
theorem C02_wired_short_round_trip (cfg : Cfg) (c a : UInt8) (fn : Function)
    (hf : FunctionCode c fn) :
    WiredFrame.tryFrom cfg (shortFrameBytes c a) = .ok (.shortFrame fn (addressOf a)) := by
  rw [C01_wired_accepts_exactly_telegrams]
  exact .short _ _ _ hf

example : WiredFrame.tryFrom cfgDebug (longFrameBytes 0x68 0x08 5 [0x72, 1, 2, 3]) =
    .ok (.longFrame (.rspUd false false) (.primary 5) [0x72, 1, 2, 3]) :=
  C02_wired_long_round_trip _ _ _ _ _ .rspUd00 (by decide)
example : WiredFrame.tryFrom cfgDebug [0x10, 0x5B, 0xFE, 0x59, 0x16] =
    .ok (.shortFrame (.reqUd2 false) (.broadcast true)) :=
  C02_wired_short_round_trip _ 0x5B 0xFE _ .reqUd2_0

/-! ## C03 -/

/-- C03: take any accepted frame that starts with `68` and replace one byte by a different value.
The only replacements that go unnoticed are the fourth byte (which the library never looks at) and
turning the start byte into the single character `E5`. -/
theorem C03_wired_long_detects_single_byte_change (cfg : Cfg) (data : List UInt8) (f : WiredFrame)
    (hok : WiredFrame.tryFrom cfg data = .ok f) (hstart : data[0]? = some 0x68)
    (i : Nat) (v : UInt8) (hi : i < data.length) (hv : v ≠ data[i]) :
    (∃ f', WiredFrame.tryFrom cfg (data.set i v) = .ok f') ↔ i = 3 ∨ (i = 0 ∧ v = 0xE5) := by
  obtain ⟨x, c, a, payload, fn, hf, hl, rfl⟩ : ∃ x c a payload fn, FunctionCode c fn ∧
      payload.length ≤ 253 ∧ data = longFrameBytes x c a payload := by
    rw [C01_wired_accepts_exactly_telegrams] at hok
    cases hok with
    | single rest => simp at hstart
    | short c a fn hf => simp [shortFrameBytes] at hstart
    | long x c a payload fn hf hc hl => exact ⟨x, c, a, payload, fn, hf, hl, rfl⟩
    | control x a payload hl => exact ⟨x, 0x53, a, payload, _, .sndUd0, hl, rfl⟩
  have hL : (UInt8.ofNat (payload.length + 2)).toNat = payload.length + 2 := by
    simp; omega
  have hbytes : longFrameBytes x c a payload = 0x68 :: UInt8.ofNat (payload.length + 2) ::
      UInt8.ofNat (payload.length + 2) :: x ::
      ((c :: a :: payload) ++ [checksum (c :: a :: payload), 0x16]) := by simp [longFrameBytes]
  simp only [hbytes] at hi hv ⊢
  rcases i with _ | _ | _ | _ | j
  · -- start byte
    simp at hv
    by_cases hE : v = 0xE5
    · subst hE; simp [WiredFrame.tryFrom]
    · have hx : ¬ v = 0x10 ∨ v = 0x10 := by tauto
      rcases hx with hx | hx
      · simp [WiredFrame.tryFrom, hE, hv, hx]
      · subst hx
        have := tryFrom_10 cfg (UInt8.ofNat (payload.length + 2) ::
          UInt8.ofNat (payload.length + 2) :: x :: c :: a :: payload)
          (checksum (c :: a :: payload)) 0x16
        simp only [List.set_cons_zero]
        rw [show (0x10 :: UInt8.ofNat (payload.length + 2) :: UInt8.ofNat (payload.length + 2) ::
          x :: (c :: a :: payload ++ [checksum (c :: a :: payload), 0x16])) =
          0x10 :: ((UInt8.ofNat (payload.length + 2) ::
          UInt8.ofNat (payload.length + 2) :: x :: c :: a :: payload) ++
          [checksum (c :: a :: payload), 0x16]) by simp, this]
        simp
        split <;> simp
  · -- first length byte
    simp only [List.set_cons_succ, List.set_cons_zero]
    rw [tryFrom_68]
    simp at hv
    simp [hv]
  · -- second length byte
    simp only [List.set_cons_succ, List.set_cons_zero]
    rw [tryFrom_68]
    simp at hv
    simp [Ne.symm hv]
  · -- fourth byte
    simp only [List.set_cons_succ, List.set_cons_zero]
    rw [tryFrom_68]
    simp only [if_true, hL, (functionTryFrom_iff _ _).2 hf]
    simp
    split <;> simp
  · -- body, checksum, stop byte
    simp only [List.set_cons_succ]
    simp only [List.length_cons, List.length_append, List.length_nil] at hi
    have hv' : v ≠ ((c :: a :: payload) ++ [checksum (c :: a :: payload), 0x16])[j]'(by
      simp; omega) := by simpa using hv
    rw [List.getElem_append] at hv'
    by_cases hj : j < (c :: a :: payload).length
    · rw [List.set_append_left _ _ hj, tryFrom_68]
      rw [dif_pos hj] at hv'
      have := checksum_set_ne _ _ _ hj hv'
      simp only [if_neg (Ne.symm this)]
      simp
    · rw [List.set_append_right _ _ (by omega)]
      rw [dif_neg hj] at hv'
      have hj2 : j - (c :: a :: payload).length = 0 ∨ j - (c :: a :: payload).length = 1 := by
        simp at hj ⊢; omega
      rcases hj2 with h2 | h2
      · rw [h2]
        simp only [h2] at hv'
        simp only [List.getElem_cons_zero] at hv'
        simp only [List.set_cons_zero]
        rw [tryFrom_68, if_neg hv']
        simp
      · rw [h2]
        simp only [h2] at hv'
        simp only [List.getElem_cons_zero, List.getElem_cons_succ] at hv'
        simp only [List.set_cons_zero, List.set_cons_succ]
        rw [tryFrom_68]
        simp only [if_true, hL]
        simp [hv']

/-- C03 for short frames: every single-byte replacement in a short frame is detected, except
turning the start byte into `E5`. -/
theorem C03_wired_short_detects_single_byte_change (cfg : Cfg) (data : List UInt8) (f : WiredFrame)
    (hok : WiredFrame.tryFrom cfg data = .ok f) (hstart : data[0]? = some 0x10)
    (i : Nat) (v : UInt8) (hi : i < data.length) (hv : v ≠ data[i]) :
    (∃ f', WiredFrame.tryFrom cfg (data.set i v) = .ok f') ↔ (i = 0 ∧ v = 0xE5) := by
  obtain ⟨c, a, fn, hf, rfl⟩ : ∃ c a fn, FunctionCode c fn ∧ data = shortFrameBytes c a := by
    rw [C01_wired_accepts_exactly_telegrams] at hok
    cases hok with
    | single rest => simp at hstart
    | short c a fn hf => exact ⟨c, a, fn, hf, rfl⟩
    | long x c a payload fn hf hc hl => simp [longFrameBytes] at hstart
    | control x a payload hl => simp [longFrameBytes] at hstart
  have key : ∀ b1 b2 cs st, WiredFrame.tryFrom cfg [0x10, b1, b2, cs, st] = _ :=
    fun b1 b2 cs st => tryFrom_10 cfg [b1, b2] cs st
  simp only [shortFrameBytes] at hi hv ⊢
  rcases i with _ | _ | _ | _ | _ | j
  · simp at hv
    by_cases hE : v = 0xE5
    · subst hE; simp [WiredFrame.tryFrom]
    · by_cases h68 : v = 0x68
      · subst h68
        simp [WiredFrame.tryFrom, sliceFrom?, validateChecksum_one]
        cases hc : cfg.overflowChecks <;> simp
      · simp [WiredFrame.tryFrom, hE, hv, h68]
  · simp only [List.set_cons_succ, List.set_cons_zero]
    simp at hv
    rw [key, if_neg]
    · simp
    · have := checksum_set_ne [c, a] 0 v (by simp) (by simpa using hv)
      simpa using this.symm
  · simp only [List.set_cons_succ, List.set_cons_zero]
    simp at hv
    rw [key, if_neg]
    · simp
    · have := checksum_set_ne [c, a] 1 v (by simp) (by simpa using hv)
      simpa using this.symm
  · simp only [List.set_cons_succ, List.set_cons_zero]
    simp at hv
    rw [key, if_neg hv]
    simp
  · simp only [List.set_cons_succ, List.set_cons_zero]
    simp at hv
    rw [key]
    simp [hv]
  · simp at hi; omega

/-- Non-vacuity: flipping a payload byte of the sample frame. -/
example : ¬ ∃ f', WiredFrame.tryFrom cfgDebug (sampleLong.set 6 0x73) = .ok f' := by
  rw [C03_wired_long_detects_single_byte_change cfgDebug sampleLong
    (.longFrame (.rspUd false false) (.primary 1) [0x72, 0x05]) (by decide) (by decide) 6 0x73
    (by decide) (by decide)]
  decide
example : ¬ ∃ f', WiredFrame.tryFrom cfgDebug [0x10, 0x5B, 0xFE, 0x59, 0x17] = .ok f' := by
  have := C03_wired_short_detects_single_byte_change cfgDebug [0x10, 0x5B, 0xFE, 0x59, 0x16]
    (.shortFrame (.reqUd2 false) (.broadcast true)) (by decide) (by decide) 4 0x17
    (by decide) (by decide)
  exact fun h => absurd (this.1 h) (by decide)

/-! ## C04 -/

/-- C04 (exact panic set): the parser panics exactly when overflow checks are compiled in and the
input starts with `68` and has four or five bytes. -/
theorem C04_wired_panics_iff (cfg : Cfg) (data : List UInt8) :
    WiredFrame.tryFrom cfg data = .panic ↔
      cfg.overflowChecks = true ∧ data[0]? = some 0x68 ∧ (data.length = 4 ∨ data.length = 5) := by
  rcases data with _ | ⟨b0, rest⟩
  · simp [WiredFrame.tryFrom]
  by_cases h0 : b0 = 0xE5
  · subst h0; simp [WiredFrame.tryFrom]
  rcases rest with _ | ⟨b1, _ | ⟨b2, rest⟩⟩
  · simp [WiredFrame.tryFrom, h0]
  · simp [WiredFrame.tryFrom, h0]
  by_cases h68 : b0 = 0x68
  · subst h68
    rcases rest with _ | ⟨b3, rest⟩
    · simp [WiredFrame.tryFrom, sliceFrom?]
    by_cases hl : 2 ≤ rest.length
    · obtain ⟨body, cs, st, rfl⟩ := exists_append_two rest hl
      rw [tryFrom_68]
      have hnp := functionTryFrom_ne_panic
      have : ∀ c, (∃ fn, Function.tryFrom c = .ok fn) ∨ ∃ e, Function.tryFrom c = .err e := by
        intro c
        cases h : Function.tryFrom c with
        | ok fn => simp
        | err e => simp
        | panic => exact absurd h (hnp c)
      constructor
      · intro h
        exfalso
        split at h
        swap; · cases h
        split at h
        · cases h
        split at h
        · cases h
        rcases body with _ | ⟨c, _ | ⟨a, payload⟩⟩
        · rcases this cs with ⟨fn, hh⟩ | ⟨e, hh⟩ <;> simp [hh] at h
        · rcases this c with ⟨fn, hh⟩ | ⟨e, hh⟩ <;> simp [hh] at h
        · rcases this c with ⟨fn, hh⟩ | ⟨e, hh⟩ <;> simp [hh] at h
          split at h <;> cases h
      · rintro ⟨_, _, h⟩
        simp at h
    · rcases rest with _ | ⟨x, _ | ⟨y, rest⟩⟩
      · simp [WiredFrame.tryFrom, sliceFrom?, validateChecksum_nil]
        cases hc : cfg.overflowChecks <;> simp
      · simp [WiredFrame.tryFrom, sliceFrom?, validateChecksum_one]
        cases hc : cfg.overflowChecks <;> simp
      · simp at hl
  · by_cases h10 : b0 = 0x10
    · subst h10
      obtain ⟨body, cs, st, he⟩ := exists_append_two (b1 :: b2 :: rest) (by simp)
      rw [he, tryFrom_10]
      constructor
      · intro h
        exfalso
        split at h
        swap; · cases h
        rcases body with _ | ⟨c, _ | ⟨a, _ | ⟨z, body⟩⟩⟩
        · cases h
        · cases h
        · simp only [] at h
          split at h
          swap; · cases h
          cases hh : Function.tryFrom c with
          | ok fn => simp [hh] at h
          | err e => simp [hh] at h
          | panic => exact absurd hh (functionTryFrom_ne_panic c)
        · cases h
      · rintro ⟨_, h, _⟩
        simp at h
    · simp [WiredFrame.tryFrom, h0, h68, h10]

/-- C04: "the parser never panics" is false in a build with overflow checks. -/
theorem C04_wired_never_panics_is_false :
    ¬ ∀ (cfg : Cfg) (data : List UInt8), WiredFrame.tryFrom cfg data ≠ .panic := by
  intro h
  exact h cfgDebug [0x68, 0x00, 0x00, 0x68] (by decide)

/-- C04: without overflow checks the parser never panics. -/
theorem C04_wired_never_panics_partial (cfg : Cfg) (h : cfg.overflowChecks = false)
    (data : List UInt8) : WiredFrame.tryFrom cfg data ≠ .panic := by
  intro hp
  have := (C04_wired_panics_iff cfg data).1 hp
  simp [h] at this

example : WiredFrame.tryFrom cfgRelease [0x68, 0x00, 0x00, 0x68] = .err .lengthShort := by decide

/-! ## C05 -/

/-- C05: the accepted function codes are exactly the twelve listed ones. -/
theorem C05_function_codes (c : UInt8) :
    (∃ fn, Function.tryFrom c = .ok fn) ↔
      c ∈ [0x40, 0x44, 0x53, 0x73, 0x5A, 0x7A, 0x5B, 0x7B, 0x08, 0x18, 0x28, 0x38] := by
  constructor
  · rintro ⟨fn, h⟩
    rw [functionTryFrom_iff] at h
    cases h <;> decide
  · intro h
    simp at h
    rcases h with h | h | h | h | h | h | h | h | h | h | h | h <;> subst h <;> exact ⟨_, rfl⟩

/-- C05: an unknown code is reported back in the error. -/
theorem C05_function_unknown (c : UInt8) (h : ¬ ∃ fn, Function.tryFrom c = .ok fn) :
    Function.tryFrom c = .err (.invalidFunction c) := by
  unfold Function.tryFrom at *
  split at h <;> first | (exact absurd ⟨_, rfl⟩ h) | rfl

/-- C05: distinct codes give distinct functions. -/
theorem C05_function_injective (c d : UInt8) (fn : Function) (hc : Function.tryFrom c = .ok fn)
    (hd : Function.tryFrom d = .ok fn) : c = d := by
  rw [functionTryFrom_iff] at hc hd
  cases hc <;> cases hd <;> rfl

/-- C05: the flags are bits 5 and 4 of the C field: FCB is bit 5 of master messages, ACD and DFC
are bits 5 and 4 of slave messages. -/
theorem C05_function_flags (c : UInt8) :
    (∀ b, Function.tryFrom c = .ok (.sndUd b) → b = c.toNat.testBit 5) ∧
    (∀ b, Function.tryFrom c = .ok (.reqUd1 b) → b = c.toNat.testBit 5) ∧
    (∀ b, Function.tryFrom c = .ok (.reqUd2 b) → b = c.toNat.testBit 5) ∧
    (∀ x y, Function.tryFrom c = .ok (.rspUd x y) →
      x = c.toNat.testBit 5 ∧ y = c.toNat.testBit 4) := by
  refine ⟨?_, ?_, ?_, ?_⟩ <;>
  · intros
    rename_i h
    rw [functionTryFrom_iff] at h
    cases h <;> decide

example : Function.tryFrom 0x28 = .ok (.rspUd true false) := by decide

/-! ## C06 -/

/-- C06: the address of an accepted short or long frame is the class of its A field. -/
theorem C06_address_classes (cfg : Cfg) (data : List UInt8) (f : WiredFrame)
    (h : WiredFrame.tryFrom cfg data = .ok f) :
    match f with
    | .singleCharacter _ => data[0]? = some 0xE5
    | .shortFrame _ addr => ∃ a, data[2]? = some a ∧ addr = addressOf a
    | .longFrame _ addr _ => ∃ a, data[5]? = some a ∧ addr = addressOf a
    | .controlFrame _ addr _ => ∃ a, data[5]? = some a ∧ addr = addressOf a := by
  rw [C01_wired_accepts_exactly_telegrams] at h
  cases h <;> simp [shortFrameBytes, longFrameBytes]

/-- C06: different address bytes are reported differently. -/
theorem C06_address_injective (a b : UInt8) (h : addressOf a = addressOf b) : a = b := by
  let inv : Address → UInt8 := fun
    | .uninitalized => 0 | .primary b => b | .secondary => 253
    | .broadcast true => 254 | .broadcast false => 255
  have key : ∀ a : UInt8, inv (addressOf a) = a := by decide +kernel
  rw [← key a, ← key b, h]

example : addressOf 253 = .secondary ∧ addressOf 254 = .broadcast true ∧
    addressOf 255 = .broadcast false ∧ addressOf 0 = .uninitalized ∧
    addressOf 17 = .primary 17 := by decide

end MBus
