import Verif.Props.SentFixedOlder
import Verif.Props.OlderMeter
/-!
# C146: the fixed data structure in `csv-wide`
-/
namespace MBus
open MBus.Spec

/-- C146 for `csv-wide`, on a wired line: the number of the meter, its access number and the words of its status.  Missing:
the counters, for which there are no columns (the row has only the eleven columns of the frame), and what
`C146_older_partial` misses. -/
theorem C146_wide_partial (cfg : Cfg) (env : FrontEnv) (older : OlderEnv) (aes : AesBlock) (input : List Char)
    (key : Option (List UInt8)) (m : SentFixed) (hm : m.Valid) (hb : m.binary = false)
    (fn : Function) (a : Address) (rest : List UInt8)
    (h : WiredTelegram (cleanAndConvert input) (.longFrame fn a (0x73 :: m.bytes ++ rest))) :
    ∃ text, serializeMbusData cfg env older aes input "csv-wide".toList key = .ok text ∧ OlderFixedRow m text := by
  obtain ⟨p, hp, -, p2, p3, p4, p5⟩ := fixed_summary cfg env.text.realDisplay aes _ key m hm hb fn a rest h
  obtain ⟨text, names, values, t1, t2, t3, t4, n1, k1, -, k3, k4, -⟩ := wide_columns cfg env older aes input key p hp
  rw [p3] at k1
  rw [p4, Option.map_some, byte_decimal] at k3
  rw [p5] at k4
  rw [p2] at n1
  exact ⟨text, t1, names, values, t2, t3, t4, n1, k1, k3, k4⟩

/-- The water meter, typed as pairs of digits. -/
example (cfg : Cfg) (env : FrontEnv) (older : OlderEnv) (aes : AesBlock) :
    ∃ text, serializeMbusData cfg env older aes (hexString (longFrameBytes 0x68 0x08 0x05 (0x73 :: waterMeter.bytes)))
      "csv-wide".toList none = .ok text ∧ OlderFixedRow waterMeter text :=
  C146_wide_partial cfg env older aes _ none waterMeter (by decide) (by decide) (.rspUd false false) (.primary 5) []
    ((C01_wired_accepts_exactly_telegrams cfgRelease _ _).1 (by decide +kernel))

end MBus
