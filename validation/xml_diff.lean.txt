import Verif.Model.Xml
import Verif.Spec.Aes
open MBus

def ratOfBits (b : UInt64) : Int × Nat × Nat := -- sign, num, 2-exponent denominators: value = num / 2^k or num*2^k
  let m := (b &&& 0xFFFFFFFFFFFFF).toNat
  let e := ((b >>> 52) &&& 0x7FF).toNat
  let s : Int := if b >>> 63 == 1 then -1 else 1
  let (m, e) := if e == 0 then (m, 1) else (m + 2^52, e)
  -- value = m * 2^(e-1075)
  if e ≥ 1075 then (s, m * 2^(e-1075), 1) else (s, m, 2^(1075-e))

def fmt6f (f : Float) : List Char :=
  if f.isNaN then "NaN".toList else if f.isInf then (if f < 0 then "-inf" else "inf").toList else
  let (s, n, d) := ratOfBits f.toBits
  let q := n * 1000000 / d
  let r := n * 1000000 % d
  let q := if 2*r > d || (2*r == d && q % 2 == 1) then q+1 else q
  let frac := toString (q % 1000000)
  let frac := String.join (List.replicate (6 - frac.length) "0") ++ frac
  ((if s < 0 then "-" else "") ++ toString (q / 1000000) ++ "." ++ frac).toList

def f64 : F64 → Float
  | .int v => if v < 0 then - Float.ofNat v.natAbs else Float.ofNat v.natAbs
  | .negZero => -0.0
  | .real32 b => (Float32.ofBits b).toFloat

def powi (e : Int) : Float := if e ≥ 0 then Float.ofScientific 1 false e.toNat else Float.ofScientific 1 true e.natAbs

def fmt6 (x : Xml.XmlReal) : List Char :=
  let f := f64 x.raw * (if x.factor.exponent ≥ 0 then Float.ofScientific x.factor.mantissa false x.factor.exponent.toNat else Float.ofScientific x.factor.mantissa true x.factor.exponent.natAbs)
  fmt6f (match x.correction with
  | .none => f
  | .times e => f * powi e
  | .plus e => f + powi e)

def lossy (b : List UInt8) : List Char := b.map fun x => if x < 128 then Char.ofNat x.toNat else '�'

def env : Xml.XmlEnv := ⟨fmt6, lossy⟩

def main (args : List String) : IO Unit := do
  let dir : System.FilePath := "/repo/tests/rscada/test-frames"
  let mut ok := 0
  for e in (← dir.readDir) do
    if e.path.extension == some "hex" then
      let norm := e.path.withExtension "norm.xml"
      if (← norm.pathExists) then
        let input ← IO.FS.readFile e.path
        let expect ← IO.FS.readFile norm
        match decodeHexBytes input.toList with
        | .ok bytes =>
          match Xml.renderFromBytes ⟨false, args.contains "pf"⟩ env Spec.Aes.aes128 bytes none with
          | .ok t =>
            let t := String.ofList t
            if t == expect then ok := ok + 1
            else
              IO.println s!"DIFF {e.fileName}"
              let a := t.splitOn "\n"; let b := expect.splitOn "\n"
              for (x, y) in a.zip b do
                if x != y then IO.println s!"  model {x}\n  expect {y}"; break
          | .err x => IO.println s!"ERR {e.fileName} "
          | .panic => IO.println s!"PANIC {e.fileName}"
        | _ => IO.println s!"HEX {e.fileName}"
  IO.println s!"ok {ok}"
