import Verif.Spec.SentBareWide
import Verif.Props.SentBare
import Verif.Props.OlderMeter
/-!
# C167 and C168 in `csv-wide`
-/
namespace MBus
open MBus.Spec

theorem bare_row (cfg : Cfg) (env : FrontEnv) (older : OlderEnv) (aes : AesBlock) (input : List Char)
    (key : Option (List UInt8)) (p : ParsedOutput)
    (h : parseFrameOutput cfg env.text.realDisplay aes (cleanAndConvert input) key = .ok p)
    (h0 : p.summary.records = []) (h1 : p.summary.identificationNumber = none) (h2 : p.summary.manufacturer = none)
    (h3 : p.summary.accessNumber = none) (h4 : p.summary.status = none) (h5 : p.summary.version = none)
    (h6 : p.summary.deviceType = none) :
    ∃ text, serializeMbusData cfg env older aes input "csv-wide".toList key = .ok text ∧ BareRow text := by
  obtain ⟨text, names, values, t1, t2, t3, t4, n1, k1, k2, k3, k4, k5, k6⟩ := wide_columns cfg env older aes input key p h
  rw [h0] at n1
  rw [h1] at k1
  rw [h2] at k2
  rw [h3] at k3
  rw [h4] at k4
  rw [h5] at k5
  rw [h6] at k6
  refine ⟨text, t1, names, values, t2, t3, t4, n1, ?_⟩
  simp only [List.forall_mem_cons, List.not_mem_nil, false_imp_iff, implies_true, and_true]
  exact ⟨k1, k2, k3, k4, k5, k6⟩

/-- C167 for `csv-wide`: a reset on a wired line is shown without a meter and without readings.  Missing: resets in control
frames, as in `C167_older_partial`; and the kind of telegram and the subcode, for which there are no columns. -/
theorem C167_wide_partial (cfg : Cfg) (env : FrontEnv) (older : OlderEnv) (aes : AesBlock) (input : List Char)
    (key : Option (List UInt8)) (fn : Function) (a : Address) (b : UInt8)
    (rest : List UInt8) (h : WiredTelegram (cleanAndConvert input) (.longFrame fn a (0x50 :: b :: rest))) :
    ∃ text, serializeMbusData cfg env older aes input "csv-wide".toList key = .ok text ∧ BareRow text := by
  have hx := (C01_wired_accepts_exactly_telegrams cfg _ _).2 h
  have hu := (C32_accepts_iff _ _).2 (reset_block b rest)
  have hp : ∃ p, parseFrameOutput cfg env.text.realDisplay aes (cleanAndConvert input) key = .ok p ∧
      p.summary.records = [] ∧ p.summary.identificationNumber = none ∧ p.summary.manufacturer = none ∧
      p.summary.accessNumber = none ∧ p.summary.status = none ∧ p.summary.version = none ∧
      p.summary.deviceType = none := by
    unfold parseFrameOutput MbusData.tryFromWired MbusData.ofPayload
    rw [hx, Res.bind_ok]
    simp only [hu]
    cases key <;> exact ⟨_, rfl, rfl, rfl, rfl, rfl, rfl, rfl, rfl⟩
  obtain ⟨p, hp, p0, p1, p2, p3, p4, p5, p6⟩ := hp
  exact bare_row cfg env older aes input key p hp p0 p1 p2 p3 p4 p5 p6

/-- C168 for `csv-wide`. -/
theorem C168_wide (cfg : Cfg) (env : FrontEnv) (older : OlderEnv) (aes : AesBlock) (input : List Char)
    (key : Option (List UInt8)) (hs : BareSent (cleanAndConvert input)) :
    ∃ text, serializeMbusData cfg env older aes input "csv-wide".toList key = .ok text ∧ BareRow text := by
  obtain ⟨g, hg, hx, hn⟩ := bare_parsed cfg _ hs
  have hp : ∃ p, parseFrameOutput cfg env.text.realDisplay aes (cleanAndConvert input) key = .ok p ∧
      p.summary.records = [] ∧ p.summary.identificationNumber = none ∧ p.summary.manufacturer = none ∧
      p.summary.accessNumber = none ∧ p.summary.status = none ∧ p.summary.version = none ∧
      p.summary.deviceType = none := by
    unfold parseFrameOutput
    rw [hx]
    cases key <;> cases g <;> exact ⟨_, rfl, rfl, rfl, rfl, rfl, rfl, rfl, rfl⟩
  obtain ⟨p, hp, p0, p1, p2, p3, p4, p5, p6⟩ := hp
  exact bare_row cfg env older aes input key p hp p0 p1 p2 p3 p4 p5 p6

/-- A reset of everything, and a request for data, typed as pairs of digits. -/
example (cfg : Cfg) (env : FrontEnv) (older : OlderEnv) (aes : AesBlock) :
    (∃ text, serializeMbusData cfg env older aes (hexString (longFrameBytes 0x68 0x73 0x05 [0x50, 0x10]))
      "csv-wide".toList none = .ok text ∧ BareRow text) ∧
    ∃ text, serializeMbusData cfg env older aes "107B017C16".toList "csv-wide".toList none = .ok text ∧ BareRow text := by
  refine ⟨C167_wide_partial cfg env older aes _ none (.sndUd true) (.primary 5) 0x10 []
    ((C01_wired_accepts_exactly_telegrams cfgRelease _ _).1 (by decide +kernel)), C168_wide cfg env older aes _ none ?_⟩
  have e : cleanAndConvert "107B017C16".toList = [0x10, 0x7B, 0x01, 0x7C, 0x16] := by decide +kernel
  rw [e]
  exact .short (.reqUd2 true) (.primary 1) ((C01_wired_accepts_exactly_telegrams cfgRelease _ _).1 (by decide +kernel))

end MBus
