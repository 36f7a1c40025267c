import Verif.Spec.SentFixedOlder
import Verif.Props.SentReset
/-!
# C146: the fixed data structure in the older JSON
-/
namespace MBus
open MBus.Spec

theorem fixed_units_sent (m : SentFixed) : (le16 (UInt8.ofNat (m.unit2.val + 64 * (m.medium.val / 4)))
    (UInt8.ofNat (m.unit1.val + 64 * (m.medium.val % 4)))).toNat =
      256 * (m.unit1.val + 64 * (m.medium.val % 4)) + (m.unit2.val + 64 * (m.medium.val / 4)) := by
  have := m.unit1.isLt
  have := m.unit2.isLt
  have := m.medium.isLt
  have e : ∀ n, n < 256 → (UInt8.ofNat n).toNat = n := fun n hn => by
    rw [UInt8.toNat_ofNat', Nat.mod_eq_of_lt hn]
  rw [le16_eq, u16le_toNat, e _ (by omega), e _ (by omega)]
  omega

/-- The summary of the older outputs. -/
theorem fixed_summary (cfg : Cfg) (rt : UInt32 → List Char) (aes : AesBlock) (data : List UInt8)
    (key : Option (List UInt8)) (m : SentFixed) (hm : m.Valid) (hb : m.binary = false)
    (fn : Function) (a : Address) (rest : List UInt8)
    (h : WiredTelegram data (.longFrame fn a (0x73 :: m.bytes ++ rest))) :
    ∃ p, parseFrameOutput cfg rt aes data key = .ok p ∧
      p.jsonRecords = none ∧ p.summary.records = [] ∧ p.summary.identificationNumber = some (eightDigits m.number) ∧
      p.summary.accessNumber = some m.access ∧ p.summary.status =
        some (if m.status.fixedWords = [] then "No Error(s)".toList else commaSeparated m.status.fixedWords) := by
  have hx := (C01_wired_accepts_exactly_telegrams cfg _ _).2 h
  have hu := (C32_accepts_iff _ _).2 (fixed_block m hm hb rest)
  obtain ⟨i0, i1, i2, i3, e, g, v⟩ := hexString_encodeBcd m.number
  have hid : idDisplay m.number = eightDigits m.number := by
    rw [← v, ← idDisplay_bcd i0 i1 i2 i3 g, ← e, bcdValue_encodeBcd]
    congr 1
    have := hm.1
    omega
  rw [← hid, ← fixed_status_words]
  unfold parseFrameOutput MbusData.tryFromWired MbusData.ofPayload
  rw [hx, Res.bind_ok]
  simp only [hu]
  cases key <;> exact ⟨_, rfl, rfl, rfl, rfl, rfl, rfl⟩

/-- C146 for the older JSON, on a wired line: the number of the meter, its access number, the words of its status, and,
unlike the structured output (`C146_counters_fails`), the units and the counters.  Missing: counters in binary code, the
CI field 77, and the wireless frame, where the summary mixes two meters (`C108_fails_fixed`). -/
theorem C146_older_partial (cfg : Cfg) (env : FrontEnv) (older : OlderEnv) (aes : AesBlock) (input : List Char)
    (key : Option (List UInt8)) (hl : PrintsLiterals older.literal) (m : SentFixed) (hm : m.Valid) (hb : m.binary = false)
    (fn : Function) (a : Address) (rest : List UInt8)
    (h : WiredTelegram (cleanAndConvert input) (.longFrame fn a (0x73 :: m.bytes ++ rest))) :
    ∃ text, serializeMbusData cfg env older aes input "json-legacy".toList key = .ok text ∧ OlderFixed m text := by
  have hbl := fixed_block m hm hb rest
  have hu := (C32_accepts_iff _ _).2 hbl
  generalize hun : le16 (UInt8.ofNat (m.unit2.val + 64 * (m.medium.val / 4)))
    (UInt8.ofNat (m.unit1.val + 64 * (m.medium.val % 4))) = u at hbl hu
  obtain ⟨p, hp, p1, p2, p3, p4, p5⟩ := fixed_summary cfg env.text.realDisplay aes _ key m hm hb fn a rest h
  obtain ⟨text, t1, -, t3⟩ := C137_wired cfg env older aes input key hl p hp _ h
    (some (.fixed m.number m.access m.status.byte u m.counter1 m.counter2)) (by
      intro blk
      constructor
      · rintro h
        cases h
        exact ⟨_, _, _, rfl, hbl⟩
      · rintro ⟨_, _, _, e, hb'⟩
        cases e
        have := (C32_accepts_iff _ _).2 hb'
        rw [hu] at this
        cases this
        rfl)
  obtain ⟨d, d1, -, -⟩ := C137_json cfg env older aes input key hl text t1
  obtain ⟨-, s⟩ := t3 d ((d1 d).2 rfl)
  have hs : ∀ f ∈ userDataShown (.fixed m.number m.access m.status.byte u m.counter1 m.counter2),
      follow ([.key "user_data"] ++ f.1) d = f.2 := fun f hf =>
    s.userData (_, f.2) (List.mem_map.2 ⟨f, hf, rfl⟩)
  simp only [userDataShown, below, List.map_cons, List.map_nil, List.forall_mem_cons] at hs
  obtain ⟨u1, u2, -, u4, u5, u6, -⟩ := hs
  refine ⟨text, t1, d, d1, u1, u2, ?_, u5, u6, ?_, ?_, ?_, s.noRecords p1, ?_⟩
  · rw [← fixed_units_sent m, hun]
    exact u4
  · have := s.summary ([.key "summary", .key "identification_number"], p.summary.identificationNumber.map Doc.str)
      (by simp [below, summaryShown])
    rw [p3] at this
    exact this
  · have := s.summary ([.key "summary", .key "access_number"], p.summary.accessNumber.map (number ·.toNat))
      (by simp [below, summaryShown])
    rw [p4] at this
    exact this
  · have := s.summary ([.key "summary", .key "status"], p.summary.status.map Doc.str) (by simp [below, summaryShown])
    rw [p5] at this
    exact this
  · exact s.summaryRecords.2 0 (by rw [p2]; exact Nat.le_refl 0)

/-! ## The hypotheses are met -/

/-- The water meter, typed as pairs of digits. -/
example (cfg : Cfg) (env : FrontEnv) (older : OlderEnv) (aes : AesBlock) (hl : PrintsLiterals older.literal) :
    ∃ text, serializeMbusData cfg env older aes (hexString (longFrameBytes 0x68 0x08 0x05 (0x73 :: waterMeter.bytes)))
      "json-legacy".toList none = .ok text ∧ OlderFixed waterMeter text :=
  C146_older_partial cfg env older aes _ none hl waterMeter (by decide) (by decide) (.rspUd false false) (.primary 5) []
    ((C01_wired_accepts_exactly_telegrams cfgRelease _ _).1 (by decide +kernel))

end MBus
