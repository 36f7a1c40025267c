import Verif.Model.Messages
import Verif.Spec.Messages
import Verif.Props.Errors
/-!
# C126: the message of an error names the defect
-/
namespace MBus
open Spec

theorem unknown_code (c : UInt8) (e : FrameError) (h : Function.tryFrom c = .err e) :
    e = .invalidFunction c ∧ ∀ fn, ¬ FunctionCode c fn := by
  have hn : ¬ ∃ fn, Function.tryFrom c = .ok fn := by
    rintro ⟨fn, h'⟩
    rw [h] at h'
    cases h'
  rw [C05_function_unknown c hn] at h
  cases h
  exact ⟨rfl, fun fn hf => hn ⟨fn, (functionTryFrom_iff _ _).2 hf⟩⟩

theorem wired_telegram_length (data : List UInt8) (f : WiredFrame) (h : WiredTelegram data f) :
    (data.head? = some 0xE5) ∨ (data.head? = some 0x10 ∧ data.length = 5) ∨
      (data.head? = some 0x68 ∧ 8 ≤ data.length) := by
  cases h with
  | single rest => exact .inl rfl
  | short c a fn hf => exact .inr (.inl ⟨rfl, rfl⟩)
  | long x c a payload fn hf hc hl => exact .inr (.inr ⟨rfl, by simp [longFrameBytes]⟩)
  | control x a payload hl => exact .inr (.inr ⟨rfl, by simp [longFrameBytes]⟩)

theorem length_defect (data : List UInt8) (h0 : data ≠ []) (h1 : data.head? ≠ some 0xE5)
    (h2 : data.head? = some 0x10 → data.length ≠ 5) (h3 : data.head? = some 0x68 → data.length < 8) :
    WiredDefect data "Length mismatch".toList := by
  have key : ∀ other f, WiredTelegram other f → other.head? = data.head? → other.length ≠ data.length := by
    intro other f ht hh hl
    rcases wired_telegram_length other f ht with h | ⟨h, hx⟩ | ⟨h, hx⟩
    · exact h1 (hh ▸ h)
    · exact h2 (hh ▸ h) (hl ▸ hx)
    · have := h3 (hh ▸ h)
      omega
  exact .short (fun f hf => key data f hf rfl rfl) key

/-- C126: the message of the wired parser names a defect the bytes have, except that a wrong stop byte of a
short frame is called a length mismatch, and that a long frame of length 0 is said to have the C field 0. -/
theorem C126_wired_partial (cfg : Cfg) (data : List UInt8) (e : FrameError)
    (h : WiredFrame.tryFrom cfg data = .err e) :
    (data = [] ∧ e.message = "Data is empty".toList) ∨ WiredDefect data e.message ∨
      (∃ c a sum stop, data = [0x10, c, a, sum, stop] ∧ stop ≠ 0x16 ∧ e.message = "Length mismatch".toList) ∨
      (∃ x, data = [0x68, 0, 0, x, 0, 0x16] ∧ e.message = "Invalid function: 0".toList) := by
  rcases data with _ | ⟨b0, rest⟩
  · cases h; exact .inl ⟨rfl, rfl⟩
  right
  by_cases h0 : b0 = 0xE5
  · subst h0
    simp [WiredFrame.tryFrom] at h
  rcases rest with _ | ⟨b1, _ | ⟨b2, rest⟩⟩
  · simp [WiredFrame.tryFrom, h0] at h
    subst h
    exact .inl (length_defect _ (by simp) (by simpa using h0) (by simp) (by simp))
  · simp [WiredFrame.tryFrom, h0] at h
    subst h
    exact .inl (length_defect _ (by simp) (by simpa using h0) (by simp) (by simp))
  by_cases h68 : b0 = 0x68
  · subst h68
    have short : rest.length < 5 → e = .lengthShort →
        WiredDefect (0x68 :: b1 :: b2 :: rest) e.message := by
      rintro hl rfl
      exact length_defect _ (by simp) (by simp) (by intro hx; simp at hx) (fun _ => by simp; omega)
    rcases rest with _ | ⟨b3, rest⟩
    · simp [WiredFrame.tryFrom, sliceFrom?] at h
      exact .inl (short (by simp) h.symm)
    by_cases hl : 2 ≤ rest.length
    · obtain ⟨body, cs, st, rfl⟩ := exists_append_two rest hl
      rw [tryFrom_68] at h
      split at h
      swap
      · cases h
        exact .inl (.sum [0x68, b1, b2, b3] body cs st (by simp) (.inr ⟨_, _, _, rfl⟩) (by assumption))
      rename_i hcs
      split at h
      · rename_i hlen
        cases h
        exact .inl (.lengths b1 b2 _ rfl (hlen.imp id (fun hx => by simp; omega)))
      rename_i hlen
      simp only [not_or, ne_eq, Decidable.not_not] at hlen
      obtain ⟨hb, hlen⟩ := hlen
      subst hb
      split at h
      · rename_i hst
        cases h
        refine .inl (.stop st ?_ hst)
        rw [show (0x68 :: b1 :: b1 :: b3 :: (body ++ [cs, st]) : List UInt8) =
          (0x68 :: b1 :: b1 :: b3 :: (body ++ [cs])) ++ [st] by simp]
        exact List.getLast?_concat
      rename_i hst
      simp only [ne_eq, Decidable.not_not] at hst
      rcases body with _ | ⟨c, _ | ⟨a, payload⟩⟩
      · have hz : cs = 0 := hcs
        have hb1 : b1 = 0 := by
          apply UInt8.toNat_inj.1
          simp at hlen
          rw [hlen]; rfl
        subst hz hb1 hst
        rw [show Function.tryFrom 0 = .err (.invalidFunction 0) from rfl] at h
        cases h
        exact .inr (.inr ⟨b3, rfl, by decide +kernel⟩)
      · simp only at h
        cases hf : Function.tryFrom c with
        | ok fn =>
          rw [hf] at h
          cases h
          exact .inl (short (by simp) rfl)
        | panic => exact absurd hf (functionTryFrom_ne_panic c)
        | err e' =>
          rw [hf] at h
          obtain ⟨rfl, hx⟩ := unknown_code c e' hf
          cases h
          refine .inl (.code c [0x68, b1, b1, b3] [cs, st] (by simp) (.inr ⟨b1, b3, rfl, ?_, ?_⟩) hx)
          · simp at hlen ⊢; omega
          · simp at hlen; omega
      · simp only at h
        cases hf : Function.tryFrom c with
        | ok fn =>
          rw [hf] at h
          simp only at h
          split at h <;> cases h
        | panic => exact absurd hf (functionTryFrom_ne_panic c)
        | err e' =>
          rw [hf] at h
          obtain ⟨rfl, hx⟩ := unknown_code c e' hf
          cases h
          refine .inl (.code c [0x68, b1, b1, b3] (a :: (payload ++ [cs, st])) (by simp)
            (.inr ⟨b1, b3, rfl, ?_, ?_⟩) hx)
          · simp at hlen ⊢; omega
          · simp at hlen; omega
    · rcases rest with _ | ⟨x, _ | ⟨y, rest⟩⟩
      · simp [WiredFrame.tryFrom, sliceFrom?, validateChecksum_nil] at h
        cases hc : cfg.overflowChecks <;> simp [hc] at h
        exact .inl (short (by simp) h.symm)
      · simp [WiredFrame.tryFrom, sliceFrom?, validateChecksum_one] at h
        cases hc : cfg.overflowChecks <;> simp [hc] at h
        exact .inl (short (by simp) h.symm)
      · simp at hl
  · by_cases h10 : b0 = 0x10
    · subst h10
      obtain ⟨body, cs, st, he⟩ := exists_append_two (b1 :: b2 :: rest) (by simp)
      rw [he] at h ⊢
      rw [tryFrom_10] at h
      split at h
      swap
      · cases h
        exact .inl (.sum [0x10] body cs st (by simp) (.inl rfl) (by assumption))
      rename_i hcs
      have short : body.length ≠ 2 → e = .lengthShort → WiredDefect (0x10 :: (body ++ [cs, st])) e.message := by
        rintro hl rfl
        exact length_defect _ (by simp) (by simp) (fun _ => by simp; omega) (by intro hx; simp at hx)
      rcases body with _ | ⟨c, _ | ⟨a, _ | ⟨z, body⟩⟩⟩
      · cases h; exact .inl (short (by simp) rfl)
      · cases h; exact .inl (short (by simp) rfl)
      · simp only at h
        split at h
        swap
        · rename_i hst
          cases h
          exact .inr (.inl ⟨c, a, cs, st, rfl, hst, rfl⟩)
        cases hf : Function.tryFrom c with
        | ok fn => rw [hf] at h; cases h
        | panic => exact absurd hf (functionTryFrom_ne_panic c)
        | err e' =>
          rw [hf] at h
          obtain ⟨rfl, hx⟩ := unknown_code c e' hf
          cases h
          exact .inl (.code c [0x10] [a, cs, st] (by simp) (.inl ⟨rfl, rfl⟩) hx)
      · cases h; exact .inl (short (by simp) rfl)
    · simp [WiredFrame.tryFrom, h0, h68, h10] at h
      subst h
      exact .inl (.start b0 rfl h10 h68 h0)

/-- The parser refuses the bytes with the message. -/
def Refused (cfg : Cfg) (data : List UInt8) (message : List Char) : Prop :=
  ∃ e, WiredFrame.tryFrom cfg data = .err e ∧ e.message = message

/-- C126: a long frame with one wrong field is refused with a message that names this field. -/
theorem C126_one_defect (cfg : Cfg) (x c a : UInt8) (payload : List UInt8) (fn : Function)
    (hf : FunctionCode c fn) (hl : payload.length ≤ 253) :
    let l := UInt8.ofNat (payload.length + 2)
    let sum := checksum (c :: a :: payload)
    (∀ b, b ≠ 0x10 → b ≠ 0x68 → b ≠ 0xE5 →
      Refused cfg ([b, l, l, x, c, a] ++ payload ++ [sum, 0x16]) "Invalid start byte".toList) ∧
    (∀ k k', ¬ (k = l ∧ k' = l) →
      Refused cfg ([0x68, k, k', x, c, a] ++ payload ++ [sum, 0x16]) "Wrong length indication".toList) ∧
    (∀ s, s ≠ sum → Refused cfg ([0x68, l, l, x, c, a] ++ payload ++ [s, 0x16])
      ("Wrong checksum, expected: ".toList ++ decimalDigits s.toNat ++ ", actual: ".toList ++
        decimalDigits sum.toNat)) ∧
    (∀ t, t ≠ 0x16 → Refused cfg ([0x68, l, l, x, c, a] ++ payload ++ [sum, t]) "Invalid stop byte".toList) ∧
    (∀ c', (∀ fn, ¬ FunctionCode c' fn) → Refused cfg (longFrameBytes x c' a payload)
      ("Invalid function: ".toList ++ decimalDigits c'.toNat)) := by
  intro l sum
  have hL : l.toNat = payload.length + 2 := by simp [l]; omega
  have shape : ∀ b k k' c s t, ([b, k, k', x, c, a] ++ payload ++ [s, t] : List UInt8) =
      b :: k :: k' :: x :: ((c :: a :: payload) ++ [s, t]) := by intros; simp
  refine ⟨fun b h1 h2 h3 => ⟨.invalidStartByte, ?_, rfl⟩, fun k k' hk => ⟨.wrongLengthIndication, ?_, rfl⟩,
    fun s hs => ⟨.wrongChecksum s sum, ?_, rfl⟩, fun t ht => ⟨.invalidStopByte, ?_, rfl⟩,
    fun c' hc => ⟨.invalidFunction c', ?_, rfl⟩⟩
  · simp [WiredFrame.tryFrom, h1, h2, h3]
  · rw [shape, tryFrom_68, if_pos rfl, if_pos]
    by_contra hn
    simp only [not_or, ne_eq, Decidable.not_not] at hn
    obtain ⟨rfl, hn⟩ := hn
    apply hk
    have : k = l := UInt8.toNat_inj.1 (by simp at hn; omega)
    exact ⟨this, this⟩
  · rw [shape, tryFrom_68, if_neg hs]
  · rw [shape, tryFrom_68, if_pos rfl, if_neg (by simp [hL]), if_pos ht]
  · have hn : ¬ ∃ fn, Function.tryFrom c' = .ok fn := fun ⟨fn, h⟩ => hc fn ((functionTryFrom_iff _ _).1 h)
    unfold longFrameBytes
    rw [shape, tryFrom_68, if_pos rfl, if_neg (by simp; omega), if_neg (by simp)]
    simp only [C05_function_unknown c' hn]

/-- C126: a short frame with a wrong start byte, checksum or control field is refused with a message that
names it. -/
theorem C126_one_defect_short (cfg : Cfg) (c a : UInt8) :
    (∀ b, b ≠ 0x10 → b ≠ 0x68 → b ≠ 0xE5 →
      Refused cfg [b, c, a, checksum [c, a], 0x16] "Invalid start byte".toList) ∧
    (∀ s, s ≠ checksum [c, a] → Refused cfg [0x10, c, a, s, 0x16]
      ("Wrong checksum, expected: ".toList ++ decimalDigits s.toNat ++ ", actual: ".toList ++
        decimalDigits (checksum [c, a]).toNat)) ∧
    ((∀ fn, ¬ FunctionCode c fn) → Refused cfg (shortFrameBytes c a)
      ("Invalid function: ".toList ++ decimalDigits c.toNat)) := by
  refine ⟨fun b h1 h2 h3 => ⟨.invalidStartByte, ?_, rfl⟩, fun s hs => ⟨.wrongChecksum s _, ?_, rfl⟩,
    fun hc => ⟨.invalidFunction c, ?_, rfl⟩⟩
  · simp [WiredFrame.tryFrom, h1, h2, h3]
  · have := tryFrom_10 cfg [c, a] s 0x16
    rw [if_neg hs] at this
    exact this
  · have hn : ¬ ∃ fn, Function.tryFrom c = .ok fn := fun ⟨fn, h⟩ => hc fn ((functionTryFrom_iff _ _).1 h)
    have := tryFrom_10 cfg [c, a] (checksum [c, a]) 0x16
    rw [if_pos rfl] at this
    simp only [if_pos, C05_function_unknown c hn] at this
    exact this

/-- C126 is false of short frames: whatever stop byte a short frame has instead of 16, it is refused for its
length, which is right. -/
theorem C126_fails_stop (cfg : Cfg) (c a t : UInt8) (ht : t ≠ 0x16) :
    Refused cfg [0x10, c, a, checksum [c, a], t] "Length mismatch".toList ∧
      ¬ WiredDefect [0x10, c, a, checksum [c, a], t] "Length mismatch".toList := by
  constructor
  · refine ⟨.lengthShort, ?_, rfl⟩
    have := tryFrom_10 cfg [c, a] (checksum [c, a]) t
    rw [if_pos rfl] at this
    simp only [if_neg ht] at this
    exact this
  · intro h
    generalize hm : "Length mismatch".toList = m at h
    cases h with
    | short h1 h2 => exact h2 (shortFrameBytes 0x40 0) _ (.short 0x40 0 _ .sndNk) rfl rfl
    | sum => exact absurd (congrArg List.head? hm) (by simp)
    | code => exact absurd (congrArg List.head? hm) (by simp)
    | _ => exact absurd hm (by decide +kernel)

/-- C126 is false of long frames of length 0: they have no C field, but the message gives it as 0. -/
theorem C126_fails_empty (cfg : Cfg) (x : UInt8) :
    Refused cfg [0x68, 0, 0, x, 0, 0x16] "Invalid function: 0".toList ∧
      ¬ WiredDefect [0x68, 0, 0, x, 0, 0x16] "Invalid function: 0".toList := by
  constructor
  · exact ⟨.invalidFunction 0, tryFrom_68 cfg 0 0 x [] 0 0x16, by decide +kernel⟩
  · intro h
    generalize hm : "Invalid function: 0".toList = m at h
    cases h with
    | code c head rest h1 h2 =>
      rcases h2 with ⟨rfl, h2⟩ | ⟨l, y, rfl, h2, h3⟩
      · simp at h1
      · simp only [List.cons_append, List.nil_append, List.cons.injEq] at h1
        obtain ⟨-, rfl, -⟩ := h1
        simp at h3
    | sum => exact absurd (congrArg List.head? hm) (by simp)
    | start => exact absurd (congrArg List.length hm) (by decide +kernel)
    | _ => exact absurd hm (by decide +kernel)

/-- C126: a complete telegram with something after it is refused for its checksum, not for its length: the
bytes are summed before their number is looked at. -/
theorem C126_fails_trailing (cfg : Cfg) (x c a t : UInt8) (payload : List UInt8)
    (hs : checksum (c :: a :: payload) + checksum (c :: a :: payload) ≠ 0x16) :
    Refused cfg (longFrameBytes x c a payload ++ [t])
      ("Wrong checksum, expected: 22, actual: ".toList ++
        decimalDigits (checksum (c :: a :: payload) + checksum (c :: a :: payload)).toNat) := by
  have hsum : checksum (c :: a :: payload ++ [checksum (c :: a :: payload)]) =
      checksum (c :: a :: payload) + checksum (c :: a :: payload) := by
    apply UInt8.toNat_inj.1
    simp [checksum, UInt8.toNat_add]
    omega
  refine ⟨.wrongChecksum 0x16 (checksum (c :: a :: payload ++ [checksum (c :: a :: payload)])), ?_, ?_⟩
  · have := tryFrom_68 cfg (UInt8.ofNat (payload.length + 2)) (UInt8.ofNat (payload.length + 2)) x
      (c :: a :: payload ++ [checksum (c :: a :: payload)]) 0x16 t
    rw [if_neg (by rw [hsum]; exact fun h => hs h.symm)] at this
    rw [← this]
    simp [longFrameBytes]
  · rw [hsum]
    show _ ++ natDisplay 22 ++ _ ++ _ = _
    rw [show "Wrong checksum, expected: ".toList ++ natDisplay 22 ++ ", actual: ".toList =
      "Wrong checksum, expected: 22, actual: ".toList by decide +kernel]
    rfl

/-- C126: bytes that are no telegram are refused with a message that gives a defect they have as a wired
telegram and one they have as a wireless one.  Apart from the two cases of the wired parser, the second is
untrue of frames whose manufacturer or identification is not well formed: they are called too short. -/
theorem C126_invalid_partial (cfg : Cfg) (aes : AesBlock) (data : List UInt8) (options : DecodeOptions)
    (a : FrameError) (b : WirelessFrameError) (h : decodeBytes cfg aes data options = .err (.invalidFrame a b)) :
    ∃ w v frame, (OutputError.invalidFrame a b).message =
        "data is not a valid wired or wireless M-Bus frame (wired: ".toList ++ w ++
          "; wireless: WirelessFrameError(".toList ++ v ++ "))".toList ∧
      (WiredDefect data w ∨
        (∃ c a sum stop, data = [0x10, c, a, sum, stop] ∧ stop ≠ 0x16 ∧ w = "Length mismatch".toList) ∨
        (∃ x, data = [0x68, 0, 0, x, 0, 0x16] ∧ w = "Invalid function: 0".toList)) ∧
      Normalized data frame ∧
      (WirelessDefect frame v ∨ v = "TooShort".toList ∧ 11 ≤ frame.length ∧ ¬ WirelessHeaderOk frame) := by
  unfold decodeBytes at h
  by_cases hne : data = []
  · rw [if_pos hne] at h; cases h
  rw [if_neg hne] at h
  cases hx : WiredFrame.tryFrom cfg data with
  | panic => rw [(C37_frame_delivered_wired cfg data).2.1.2 hx] at h; cases h
  | ok g =>
    obtain ⟨m, hm, hg⟩ := (C37_frame_delivered_wired cfg data).2.2 g hx
    rw [hm] at h
    obtain ⟨s, h1, -⟩ := finish_err _ _ _ _ _ _ _ _ _ _ _ _ h
    cases h1
  | err e =>
    rw [((C37_frame_delivered_wired cfg data).1 e).2 hx] at h
    obtain ⟨frame, hf⟩ := normalized_exists data
    obtain ⟨r, buf, hs, hr⟩ := normalized_strip data frame hf
    simp only [hs, hr] at h
    cases hy : WirelessFrame.tryFrom frame with
    | panic => exact absurd hy (C13_wireless_never_panics frame)
    | ok f =>
      obtain ⟨m, hm, hg, _⟩ := (C37_wireless frame).2 f hy
      rw [hm] at h
      obtain ⟨s, h1, -⟩ := finish_err _ _ _ _ _ _ _ _ _ _ _ _ h
      cases h1
    | err e' =>
      rw [((C37_wireless frame).1 e').2 hy] at h
      cases h
      refine ⟨a.message, b.debug, frame, ?_, ?_, hf, ?_⟩
      · show _ ++ _ ++ "; wireless: ".toList ++ ("WirelessFrameError(".toList ++ _ ++ ")".toList) ++ ")".toList = _
        rw [show "; wireless: WirelessFrameError(".toList = "; wireless: ".toList ++ "WirelessFrameError(".toList
          by decide +kernel, show "))".toList = ")".toList ++ ")".toList by decide +kernel]
        simp only [List.append_assoc]
      · rcases C126_wired_partial cfg data a hx with ⟨h1, -⟩ | h1
        · exact absurd h1 hne
        · exact h1
      · have hne' : frame ≠ [] := by
          cases hf with
          | asIs => exact hne
          | stripped tail h1 =>
            obtain ⟨b0, rest, rfl⟩ := List.exists_cons_of_ne_nil hne
            simp [fixL]
        obtain ⟨p1, p2, p3⟩ := C12_wireless_error_precedence frame
        by_cases hh : WirelessHeaderOk frame
        · obtain ⟨l, c, m0, m1, d0, d1, d2, d3, ver, dev, ci, r, i, j, k, he, hi, hj, hk, hm, hbcd⟩ := id hh
          by_cases hl : l.toNat = 10 + r.length
          · obtain ⟨p, _, hp⟩ := payload_slice [l, c, m0, m1, d0, d1, d2, d3, ver, dev] (ci :: r) rfl
            have hok := (C12_wireless_accepts_exactly_telegrams frame _).2 (he ▸
              (WirelessTelegram.mk l c m0 m1 d0 d1 d2 d3 ver dev ci r p i j k (Function.tryFrom c).toOption hl
                (by intro g; rw [← functionTryFrom_iff]; cases Function.tryFrom c <;> simp [Res.toOption])
                hi hj hk hm hbcd hp))
            rw [hy] at hok; cases hok
          · have hl' : l.toNat ≠ (c :: m0 :: m1 :: d0 :: d1 :: d2 :: d3 :: ver :: dev :: ci :: r).length := by
              simp; omega
            rw [p3 l _ he hh hl'] at hy
            cases hy
            rw [he]
            exact .inl (.length l _ rfl hl')
        · rw [p2 hne' hh] at hy
          cases hy
          by_cases hl : frame.length < 11
          · exact .inl (.short hl)
          · exact .inr ⟨rfl, by omega, hh⟩

/-- C126 is false of wireless frames whose identification number has a digit above 9: they are called too
short, although they are complete. -/
theorem C126_fails_wireless (cfg : Cfg) (aes : AesBlock) (options : DecodeOptions) :
    ∃ data l rest e, data = l :: rest ∧ l.toNat = rest.length ∧ 11 ≤ data.length ∧
      decodeBytes cfg aes data options = .err e ∧
      e.message = ("data is not a valid wired or wireless M-Bus frame (wired: Invalid start byte; " ++
        "wireless: WirelessFrameError(TooShort))").toList := by
  refine ⟨_, 0x0A, [0x44, 0xAE, 0x0C, 0x7A, 0x56, 0x34, 0x12, 0x01, 0x07, 0x7A], _, rfl, rfl, by decide, ?_,
    show (OutputError.invalidFrame .invalidStartByte .tooShort).message = _ by decide +kernel⟩
  obtain ⟨oc, tf⟩ := cfg
  cases oc <;> cases tf <;> with_unfolding_all rfl

/-! ## Refused keys -/

/-- Why encrypted data are not decrypted. -/
theorem refusal_cause (aes : AesBlock) (blk : UserDataBlock) (link : Option ManufacturerId) (k out : List UInt8)
    (hk : k.length = 16) (hout : (variableData blk).length ≤ out.length)
    (henc : userDataIsEncrypted (some blk) = true) (e : DecryptionError)
    (h : (decryptUserData aes blk link k out).1 = .err e) :
    (∃ cf, configurationOf blk = some cf ∧ e = .unsupportedMode cf.securityMode ∧ ¬ CbcMode blk) ∨
      (e = .invalidDataLength ∧ CbcMode blk ∧ variableData blk = []) ∨
      (e = .unknownEncryptionState ∧
        ((∃ ell header block, blk = .long ell header block ∧ ∀ code, header.manufacturer ≠ .ok code) ∨
          ∃ ell header block, blk = .short ell header block ∧ link = none)) := by
  have main : ∀ getKey ctx data, getKey ctx = .ok k → data.length ≤ out.length →
      ctx.securityMode ≠ .noEncryption → (decryptInto aes getKey ctx data out).1 = .err e →
      (e = .unsupportedMode ctx.securityMode ∧
        ¬ (ctx.securityMode = .aesCbc128IvZero ∨ ctx.securityMode = .aesCbc128IvNonZero)) ∨
      (e = .invalidDataLength ∧ data = [] ∧
        (ctx.securityMode = .aesCbc128IvZero ∨ ctx.securityMode = .aesCbc128IvNonZero)) := by
    intro getKey ctx data hg hd hm h
    rw [C39_decrypt_result, hg] at h
    simp only [hk, ne_eq, not_true_eq_false, if_false, if_neg hm, if_pos hd] at h
    split at h
    · rename_i hc
      split at h
      · cases h; exact .inr ⟨rfl, by assumption, hc⟩
      · cases h
    · cases h; exact .inl ⟨rfl, by assumption⟩
  have cbc : ∀ c : ConfigurationField, c.securityMode = .aesCbc128IvZero ∨ c.securityMode = .aesCbc128IvNonZero →
      modeNumber c = 5 ∨ modeNumber c = 7 := by
    intro c hc
    rw [C10_security_mode_names] at hc
    unfold modeNumber
    generalize c.raw.toNat / 256 % 32 = n at hc
    by_contra hn
    have : ∀ n, n < 16 → ¬ (n = 5 ∨ n = 7) → ¬ ((securityModes[n]?).getD (.reservedHigher (UInt8.ofNat n)) =
        .aesCbc128IvZero ∨ (securityModes[n]?).getD (.reservedHigher (UInt8.ofNat n)) = .aesCbc128IvNonZero) := by
      decide +kernel
    by_cases hlt : n < 16
    · exact this n hlt hn hc
    · rw [List.getElem?_eq_none (by simp [securityModes]; omega)] at hc
      simp at hc
  cases blk with
  | long ell header block =>
    have henc' : header.isEncrypted = true := henc
    have hm' : header.short.configurationField.securityMode ≠ .noEncryption := by
      intro hx
      have : (header.short.configurationField.securityMode != .noEncryption) = true := henc
      rw [hx] at this
      cases this
    simp only [decryptUserData] at h
    cases hm : header.manufacturer with
    | ok code =>
      obtain ⟨p, h1, h2⟩ := static_key code.toId (UInt32.ofNat header.identificationNumber) k
      rw [hm] at h
      simp only [h1, UserDataBlock.decryptVariableData, hm] at h
      rw [if_neg (by simpa using henc')] at h
      rcases main _ _ _ (by exact h2 _ rfl rfl) hout hm' h with ⟨h3, h4⟩ | ⟨h3, h4, h5⟩
      · exact .inl ⟨_, rfl, h3, fun hc => h4 (cbc_modes _ hc)⟩
      · exact .inr (.inl ⟨h3, cbc _ h5, h4⟩)
    | err e' => rw [hm] at h; cases h; exact .inr (.inr ⟨rfl, .inl ⟨_, _, _, rfl, by simp [hm]⟩⟩)
    | panic => rw [hm] at h; cases h; exact .inr (.inr ⟨rfl, .inl ⟨_, _, _, rfl, by simp [hm]⟩⟩)
  | short ell header block =>
    have henc' : header.isEncrypted = true := henc
    have hm' : header.configurationField.securityMode ≠ .noEncryption := by
      intro hx
      have : (header.configurationField.securityMode != .noEncryption) = true := henc
      rw [hx] at this
      cases this
    simp only [decryptUserData] at h
    rw [if_neg hm'] at h
    cases link with
    | none => cases h; exact .inr (.inr ⟨rfl, .inr ⟨_, _, _, rfl, rfl⟩⟩)
    | some id =>
      obtain ⟨p, h1, h2⟩ := static_key id.manufacturerCode.toId (UInt32.ofNat id.identificationNumber) k
      simp only [h1, UserDataBlock.decryptVariableDataWithContext] at h
      rw [if_neg (by simpa using henc')] at h
      rcases main _ _ _ (by exact h2 _ rfl rfl) hout hm' h with ⟨h3, h4⟩ | ⟨h3, h4, h5⟩
      · exact .inl ⟨_, rfl, h3, fun hc => h4 (cbc_modes _ hc)⟩
      · exact .inr (.inl ⟨h3, cbc _ h5, h4⟩)
  | _ => cases henc

theorem mode_debug (cf : ConfigurationField) : cf.securityMode.debug = modeName (modeNumber cf) := by
  rw [C10_security_mode_names]
  have hlt : modeNumber cf < 32 := Nat.mod_lt _ (by decide)
  unfold modeNumber at hlt ⊢
  generalize cf.raw.toNat / 256 % 32 = n at hlt
  have : ∀ n, n < 32 → ((securityModes[n]?).getD (.reservedHigher (UInt8.ofNat n))).debug = modeName n := by
    decide +kernel
  exact this n hlt

/-- C126: an encrypted telegram that is not decrypted with the given key is refused with a message that names
the cause: protection by the extended link layer, a mode other than 5 and 7 with its name, no data to
decrypt, or no address of the meter. -/
theorem C126_security (cfg : Cfg) (aes : AesBlock) (haes : BlockSized aes) (data : List UInt8)
    (options : DecodeOptions) (hkey : ∀ k, options.key = some k → k.length = 16) (e : SecurityError)
    (h : decodeBytes cfg aes data options = .err (.security e)) :
    ∃ link payload blk, Telegram data link payload ∧ Block payload blk ∧
      (((OutputError.security e).message =
          "decryption was requested for an ELL-protected payload, which is not currently supported".toList ∧
        ∃ ell header block, blk = .short (some ell) header block ∧ ell.encryption ≠ none ∧
          modeNumber header.configurationField = 0) ∨
      (∃ cf, configurationOf blk = some cf ∧ (OutputError.security e).message =
          "Unsupported security mode: ".toList ++ modeName (modeNumber cf) ∧
        modeNumber cf ≠ 0 ∧ modeNumber cf ≠ 5 ∧ modeNumber cf ≠ 7) ∨
      ((OutputError.security e).message = "Invalid data length".toList ∧ CbcMode blk ∧ variableData blk = []) ∨
      ((OutputError.security e).message = "Unknown encryption state for this data block type".toList ∧
        ((∃ ell header block, blk = .long ell header block ∧ ∀ code, header.manufacturer ≠ .ok code) ∨
          ∃ ell header block, blk = .short ell header block ∧ link = none))) := by
  obtain ⟨link, payload, blk, k, ht, hb, hs, hk, hn⟩ := (C118_security_iff cfg aes haes data options hkey).1 ⟨e, h⟩
  refine ⟨link, payload, blk, ht, hb, ?_⟩
  have hp : prepareSecurity aes (some blk) link options.key (List.replicate 512 0) = .err e := by
    obtain ⟨protocol, frame, normalized, stripped, hx⟩ := decode_telegram cfg aes data link payload ht
    rw [hx, (C32_accepts_iff _ _).2 hb] at h
    exact (finish_refused _ _ _ _ _ _ _ _ _ _ _ _).1 h
  rw [hk] at hp
  by_cases henc : userDataIsEncrypted (some blk) = true
  · have hid : ∀ id, link = some id → id.identificationNumber < 2 ^ 32 := by
      rintro id rfl
      cases ht with
      | wireless f frame _ _ hw =>
        obtain ⟨_, _, _, _, _, _, _, hn⟩ := wireless_parts hw
        exact hn
    have hl : (variableData blk).length ≤ (List.replicate 512 (0 : UInt8)).length := by
      rw [List.length_replicate]
      have := telegram_length _ _ _ ht
      by_cases hv : variableData blk = []
      · simp [hv]
      · obtain ⟨header, rfl, _⟩ := block_header hb hv
        simp at this; omega
    obtain ⟨i1, i2⟩ := decryptWithKey_iff aes haes k (hkey k hk) blk link (List.replicate 512 0) hl
      (blockNumber_lt hb) hid
    have hw := decrypt_same aes blk link k (List.replicate 512 0) henc
    rw [prepare_decrypts _ _ _ _ _ henc] at hp
    have hr := refusal_cause aes blk link k (List.replicate 512 0) (hkey k hk) hl henc
    generalize List.replicate 512 (0 : UInt8) = out at hp hr hl i1 i2 hw
    rcases hd : decryptUserData aes blk link k out with ⟨r, o⟩
    rw [hd] at hp hr hw
    cases r with
    | panic => cases hp
    | ok len =>
      obtain ⟨plain, h1, -⟩ := i1 len o hw
      exact absurd h1 (hn plain)
    | err e' =>
      simp only [Res.err.injEq] at hp
      subst hp
      rcases hr e' rfl with ⟨cf, h1, rfl, h2⟩ | ⟨rfl, h1, h2⟩ | ⟨rfl, h1⟩
      · refine .inr (.inl ⟨cf, h1, ?_, ?_⟩)
        · show _ ++ _ = _
          rw [mode_debug]
        · cases blk with
          | long ell header block =>
            cases h1
            exact ⟨(not_encrypted_mode _).1 henc, fun hx => h2 (.inl hx), fun hx => h2 (.inr hx)⟩
          | short ell header block =>
            cases h1
            exact ⟨(not_encrypted_mode _).1 henc, fun hx => h2 (.inl hx), fun hx => h2 (.inr hx)⟩
          | _ => cases h1
      · exact .inr (.inr (.inl ⟨rfl, h1, h2⟩))
      · exact .inr (.inr (.inr ⟨rfl, h1⟩))
  · left
    cases blk with
    | long ell header block =>
      refine absurd ?_ henc
      show (header.short.configurationField.securityMode != .noEncryption) = true
      simpa [Secured] using hs
    | short ell header block =>
      have hm : header.configurationField.securityMode = .noEncryption := by
        by_contra hx
        apply henc
        show (header.configurationField.securityMode != .noEncryption) = true
        simpa using hx
      rcases hs with hs | ⟨x, rfl, hs⟩
      · exact absurd hm hs
      obtain ⟨y, hy⟩ := Option.ne_none_iff_exists'.1 hs
      constructor
      · unfold prepareSecurity at hp
        simp only [securityFields, hm, hy, Option.any_some, Option.isSome_some, Bool.true_and, beq_self_eq_true,
          if_true, Option.isNone_none, and_self] at hp
        cases hp
        rfl
      · refine ⟨x, header, block, rfl, hs, ?_⟩
        by_contra hx
        have := (not_encrypted_mode header.configurationField).2 hx
        rw [hm] at this
        cases this
    | _ => cases hs

/-- The messages of a wrong checksum, of a telegram that ends early and of a mode without decryption. -/
example (cfg : Cfg) (aes : AesBlock) :
    Refused cfg (sampleLong.take 8 ++ [0x81, 0x16]) "Wrong checksum, expected: 129, actual: 128".toList ∧
    Refused cfg (sampleLong.take 3) "Length mismatch".toList ∧
    ∃ e, decodeBytes cfg aes (olderWired 8 [1, 2, 3]) ⟨some (List.replicate 16 7), true⟩ = .err e ∧
      e.message = "Unsupported security mode: AesCtr128Cmac".toList := by
  obtain ⟨oc, tf⟩ := cfg
  cases oc <;> cases tf <;>
    exact ⟨⟨_, by with_unfolding_all rfl, by decide +kernel⟩, ⟨_, by with_unfolding_all rfl, by decide +kernel⟩,
      _, by with_unfolding_all rfl, by decide +kernel⟩

/-- No data to decrypt, and protection by the extended link layer. -/
example (cfg : Cfg) (aes : AesBlock) :
    (∃ e, decodeBytes cfg aes (olderWired 5 []) ⟨some (List.replicate 16 7), true⟩ = .err e ∧
      e.message = "Invalid data length".toList) ∧
    ∃ e, decodeBytes cfg aes (wiredLong [0x8D, 0x20, 1, 2, 3, 4, 5, 6, 7, 9]) ⟨some (List.replicate 16 7), true⟩ =
      .err e ∧ e = .security .unsupportedEll := by
  obtain ⟨oc, tf⟩ := cfg
  cases oc <;> cases tf <;>
    exact ⟨⟨_, by with_unfolding_all rfl, by decide +kernel⟩, _, by with_unfolding_all rfl, rfl⟩

/-- A wireless frame whose L field is one too large. -/
example (cfg : Cfg) (aes : AesBlock) : ∃ e,
    decodeBytes cfg aes [0x0B, 0x44, 0xAE, 0x0C, 0x78, 0x56, 0x34, 0x12, 0x01, 0x07, 0x7A] ⟨none, true⟩ = .err e ∧
      e.message = ("data is not a valid wired or wireless M-Bus frame (wired: Invalid start byte; wireless: " ++
        "WirelessFrameError(WrongLength { expected: 12, actual: 11 }))").toList := by
  refine ⟨_, ?_, show (OutputError.invalidFrame .invalidStartByte (.wrongLength 12 11)).message = _
    by decide +kernel⟩
  obtain ⟨oc, tf⟩ := cfg
  cases oc <;> cases tf <;> with_unfolding_all rfl

end MBus
