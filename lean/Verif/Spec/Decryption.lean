import Verif.Model.Decryption
/-!
# Specification of CBC encryption and of a first-wins bounded key map
-/
namespace MBus.Spec

/-- CBC encryption of a list of 16-byte blocks under an abstract block encryption. -/
def cbcEncrypt (enc : List UInt8 → List UInt8 → List UInt8) (key : List UInt8) :
    List UInt8 → List (List UInt8) → List UInt8
  | _, [] => []
  | prev, p :: ps =>
    let c := enc key (List.zipWith (· ^^^ ·) p prev)
    c ++ cbcEncrypt enc key c ps

/-- A request to store a key: manufacturer id, identification number, key. -/
structure AddReq where
  manufacturer : UInt16
  ident : UInt32
  key : List UInt8
  deriving DecidableEq, Repr

/-- What a bounded map of capacity `n`, filled by the requests in order (those beyond the capacity
being refused), answers for a meter: the key of the first stored request for it. -/
def firstWins (n : Nat) (reqs : List AddReq) (m : UInt16) (i : UInt32) : Option (List UInt8) :=
  ((reqs.take n).find? (fun r => r.manufacturer = m ∧ r.ident = i)).map AddReq.key

/-- The provider after a history of `add_key` calls, whatever their results. -/
def afterAdds (n : Nat) (reqs : List AddReq) : StaticKeyProvider :=
  reqs.foldl (fun p r => (p.addKey r.manufacturer r.ident r.key).2) (StaticKeyProvider.new n)

end MBus.Spec
