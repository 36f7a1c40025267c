import Verif.Lemmas.HexviewView
import Verif.Props.Output
/-! When the decrypted view of a telegram crashes. -/
namespace MBus
open Spec

theorem mapErr_panic_iff {ε ε' α : Type} (x : Res ε α) (f : ε → ε') : x.mapErr f = .panic ↔ x = .panic := by
  cases x <;> simp [Res.mapErr]

theorem fixWired_no_panic (display : List UInt8) : fixWired display ≠ .panic := by
  intro h
  unfold fixWired at h
  rw [Res.bind_eq_panic] at h
  rcases h with h | ⟨n, -, h⟩
  · exact Res.ofOption_ne_panic h
  split at h
  · cases h
  · simp only [Res.bind_eq_panic] at h
    rcases h with h | ⟨n, -, h⟩
    · exact Res.ofOption_ne_panic h
    · cases h

theorem decryptedWired_panic (cfg : Cfg) (aes : AesBlock) (key data : List UInt8)
    (h : decryptedWired cfg aes key data = .panic) : WiredFrame.tryFrom cfg data = .panic := by
  unfold decryptedWired at h
  rw [Res.bind_eq_panic] at h
  rcases h with h | ⟨m, hm, h⟩
  · rw [mapErr_panic_iff] at h
    exact (C37_frame_delivered_wired cfg data).2.1.1 h
  exfalso
  rw [mapErr_eq_ok] at hm
  rw [Res.bind_eq_panic] at h
  rcases h with h | ⟨blk, -, h⟩
  · exact Res.ofOption_ne_panic h
  simp only at h
  split at h
  · cases h
  rw [Res.bind_eq_panic] at h
  rcases h with h | ⟨len, -, h⟩
  · exact (decryptWithKey_key _ _ _ _ _).1 h
  rw [Res.bind_eq_panic] at h
  rcases h with h | ⟨n, hn, h⟩
  · exact Res.ofOption_ne_panic h
  rw [Res.bind_eq_panic] at h
  rcases h with h | ⟨d, hd, h⟩
  · exact Res.ofOption_ne_panic h
  rw [Res.bind_eq_panic] at h
  rcases h with h | ⟨plain, -, h⟩
  · exact Res.ofOption_ne_panic h
  rw [Res.bind_eq_panic] at h
  rcases h with h | ⟨display, -, h⟩
  swap
  · exact fixWired_no_panic _ h
  have hn' : wiredUserDataLen m.frame = some n := by
    revert hn; cases wiredUserDataLen m.frame <;> simp [Res.ofOption]
  have hd' : d + blk.variableDataLen = n := by
    revert hd
    unfold checkedSub
    split
    · intro hd; simp only [Res.ofOption, Res.ok.injEq] at hd; omega
    · intro hd; cases hd
  have hf : WiredFrame.tryFrom cfg data = .ok m.frame := by
    cases hw : WiredFrame.tryFrom cfg data with
    | panic => rw [(C37_frame_delivered_wired cfg data).2.1.2 hw] at hm; cases hm
    | err e => rw [((C37_frame_delivered_wired cfg data).1 e).2 hw] at hm; cases hm
    | ok f =>
      obtain ⟨m', h1, h2⟩ := (C37_frame_delivered_wired cfg data).2.2 f hw
      rw [hm] at h1; cases h1; rw [h2]
  have hl : 6 + n ≤ data.length := by
    have ht := (C01_wired_accepts_exactly_telegrams _ _ _).1 hf
    generalize m.frame = g at ht hn'
    cases ht with
    | single rest => cases hn'
    | short c a fn hfn => cases hn'
    | control x a payload hl => 
      simp only [wiredUserDataLen, Option.some.injEq] at hn'
      subst hn'
      simp only [longFrameBytes, List.length_append, List.length_cons, List.length_nil]
      omega
    | long x c a payload fn hfn hc hl =>
      simp only [wiredUserDataLen, Option.some.injEq] at hn'
      subst hn'
      simp only [longFrameBytes, List.length_append, List.length_cons, List.length_nil]
      omega
  unfold splice at h
  rw [if_pos ⟨by omega, by omega⟩] at h
  cases h

theorem decryptedWireless_no_panic (aes : AesBlock) (key data : List UInt8) :
    decryptedWireless aes key data ≠ .panic := by
  intro h
  unfold decryptedWireless at h
  obtain ⟨frame, hn⟩ := normalized_exists data
  rw [(withoutFormatA_iff _ _).2 hn, Res.bind_ok, Res.bind_eq_panic] at h
  rcases h with h | ⟨m, hm, h⟩
  · rw [mapErr_panic_iff] at h
    unfold MbusData.tryFromWireless at h
    rw [Res.bind_eq_panic] at h
    rcases h with h | ⟨f, -, h⟩
    · exact C13_wireless_never_panics _ h
    · obtain ⟨m, hm, -⟩ := ofPayload_isOk f f.data
      rw [hm] at h
      cases h
  rw [mapErr_eq_ok] at hm
  rw [Res.bind_eq_panic] at h
  rcases h with h | ⟨blk, -, h⟩
  · exact Res.ofOption_ne_panic h
  simp only at h
  split at h
  · cases h
  rw [Res.bind_eq_panic] at h
  rcases h with h | ⟨len, -, h⟩
  · exact (decryptWithKey_key _ _ _ _ _).1 h
  rw [Res.bind_eq_panic] at h
  rcases h with h | ⟨n, hn, h⟩
  · exact Res.ofOption_ne_panic h
  rw [Res.bind_eq_panic] at h
  rcases h with h | ⟨d, hd, h⟩
  · exact Res.ofOption_ne_panic h
  rw [Res.bind_eq_panic] at h
  rcases h with h | ⟨plain, -, h⟩
  · exact Res.ofOption_ne_panic h
  rw [Res.bind_eq_panic] at h
  rcases h with h | ⟨display, -, h⟩
  swap
  · cases h
  have sub : ∀ a b c, Res.ofOption () (checkedSub a b) = .ok c → c + b = a := by
    intro a b c hd
    revert hd
    unfold checkedSub
    split
    · intro hd; simp only [Res.ofOption, Res.ok.injEq] at hd; omega
    · intro hd; cases hd
  have h1 := sub _ _ _ hn
  have h2 := sub _ _ _ hd
  unfold splice at h
  rw [if_pos ⟨by omega, by omega⟩] at h
  cases h

theorem replace_panic (cfg : Cfg) (dt : Data → List Char) (display : List UInt8) (segs : List ByteSegment)
    (h : replaceEncrypted cfg dt display segs = .panic) :
    ∃ x, x <:+: display ∧ DataRecord.parse cfg false x = .panic := by
  induction segs with
  | nil => cases h
  | cons s rest ih =>
    unfold replaceEncrypted at h
    split at h
    · rw [Res.bind_eq_panic] at h
      rcases h with h | ⟨rs, -, h⟩
      · unfold recordsAt at h
        split at h
        · rename_i d hd
          obtain ⟨x, hx, hp⟩ := records_panic cfg dt _ _ _ h
          refine ⟨x, hx.isInfix.trans ?_, hp⟩
          unfold slice? at hd
          split at hd
          · cases hd
            exact (List.drop_suffix _ _).isInfix.trans (List.take_prefix _ _).isInfix
          · cases hd
        · cases h
      · rw [Res.bind_eq_panic] at h
        rcases h with h | ⟨_, -, h⟩
        · exact ih h
        · cases h
    · rw [Res.bind_eq_panic] at h
      rcases h with h | ⟨_, -, h⟩
      · exact ih h
      · cases h
end MBus
