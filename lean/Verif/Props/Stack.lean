import Verif.Spec.Stack
import Verif.Model.Stack
import Verif.Props.Wired
import Verif.Props.UserData
/-!
# C156: nested calls
-/
namespace MBus
open MBus.Spec

theorem ell_ci (ci : UInt8) : ControlInformation.ofByte ci = .ok .extendedLinkLayerI ↔ ci = 0x8C := by
  revert ci; decide +kernel

/-- C156: how deep the parser of the application layer calls itself: once for every extended link layer in front. -/
theorem C156_parse_iff (room : Nat) (data : List UInt8) :
    (layers data < room → UserDataBlock.tryFromWithin room data = some (UserDataBlock.tryFrom data)) ∧
      (room ≤ layers data → UserDataBlock.tryFromWithin room data = none) := by
  induction room generalizing data with
  | zero => exact ⟨fun h => by omega, fun _ => rfl⟩
  | succ room ih =>
    match data with
    | [] => exact ⟨fun _ => by rw [UserDataBlock.tryFrom]; rfl, fun h => by simp [layers] at h⟩
    | ci :: rest =>
      by_cases hci : ci = 0x8C
      · subst hci
        have h8 := (ell_ci 0x8C).2 rfl
        match rest with
        | [] => exact ⟨fun _ => by simp [UserDataBlock.tryFrom, UserDataBlock.tryFromWithin, h8], fun h => by simp [layers] at h⟩
        | [a] => exact ⟨fun _ => by simp [UserDataBlock.tryFrom, UserDataBlock.tryFromWithin, h8], fun h => by simp [layers] at h⟩
        | a :: b :: inner =>
          obtain ⟨h1, h2⟩ := ih inner
          have hl : layers (0x8C :: a :: b :: inner) = layers inner + 1 := by simp [layers]
          constructor
          · intro h
            rw [UserDataBlock.tryFrom, UserDataBlock.tryFromWithin, h8]
            dsimp only
            rw [h1 (by omega)]
            rfl
          · intro h
            rw [UserDataBlock.tryFromWithin, h8]
            dsimp only
            rw [h2 (by omega)]
            rfl
      · have hl : layers (ci :: rest) = 0 := by
          match rest with
          | [] => rfl
          | [_] => rfl
          | _ :: _ :: _ => simp [layers, hci]
        refine ⟨fun _ => ?_, fun h => by omega⟩
        have hne := fun h => hci ((ell_ci ci).1 h)
        unfold UserDataBlock.tryFrom UserDataBlock.tryFromWithin
        dsimp only
        generalize ControlInformation.ofByte ci = c at hne ⊢
        cases c with
        | err e => rfl
        | panic => rfl
        | ok c => cases c <;> first | rfl | exact absurd rfl hne

/-- C156: how deep the annotation calls itself: not deeper than the parser. -/
theorem C156_annotate (cfg : Cfg) (dataText : Data → List Char) (room base : Nat) (app : List UInt8)
    (h : layers app < room) : annotateAppWithin cfg dataText room base app = some (annotateApp cfg dataText base app) := by
  induction room generalizing base app with
  | zero => omega
  | succ room ih =>
    match app with
    | [] => rw [annotateApp]; rfl
    | ci :: tail =>
      unfold annotateApp annotateAppWithin
      dsimp only
      by_cases hci : ci = 0x8C
      · subst hci
        have h1 : ¬ ((0x8C : UInt8) = 0x72 ∨ (0x8C : UInt8) = 0x76) := by decide
        have h2 : ¬ ((0x8C : UInt8) = 0x7A ∨ (0xA0 ≤ (0x8C : UInt8) ∧ (0x8C : UInt8) ≤ 0xAF)) := by decide
        have h3 : ¬ (0x8C : UInt8) = 0x78 := by decide
        simp only [if_neg h1, if_neg h2, if_neg h3, if_true]
        match tail with
        | [] => rfl
        | [_] => rfl
        | a :: b :: inner =>
          have hl : layers (0x8C :: a :: b :: inner) = layers inner + 1 := by simp [layers]
          have h4 : ¬ (0x8C :: a :: b :: inner : List UInt8).length < 3 := by simp
          simp only [if_neg h4, List.drop_succ_cons, List.drop_zero]
          cases inner with
          | nil => rw [annotateApp]; rfl
          | cons c rest => rw [if_neg (by simp), ih _ _ (by omega)]; rfl
      · simp only [if_neg hci]
        split
        · split <;> rfl
        · split
          · split <;> rfl
          · split
            · rfl
            · split
              · rfl
              · split <;> rfl

theorem layers_le (data : List UInt8) : 3 * layers data ≤ data.length := by
  fun_induction layers data <;> (simp_all; try omega)

theorem carried_length {data payload : List UInt8} (h : HandsOver data payload) : payload.length ≤ 253 := by
  cases h with
  | wired fn address h => cases h; assumption
  | control fn address h => cases h; assumption
  | wireless f frame _ h hp =>
    subst hp
    cases h with
    | mk l c m0 m1 d0 d1 d2 d3 ver dev ci rest payload i j k fn hl hfn hi hj hk hm hbcd hp =>
      have : l.toNat < 256 := l.toNat_lt
      have hle : payload.length ≤ (ci :: rest).length := by
        cases hp with
        | crc _ hi lo hb => rw [hb]; simp
        | plain => simp
      simp at hle ⊢
      omega

/-- C156 (partial: not of bytes that do not come from a telegram, see `C156_fails`): with room for 85 nested calls no telegram exhausts the stack, neither the parser nor the annotation. -/
theorem C156_telegrams_partial (cfg : Cfg) (dataText : Data → List Char) (data payload : List UInt8) (base : Nat)
    (h : HandsOver data payload) :
    UserDataBlock.tryFromWithin 85 payload = some (UserDataBlock.tryFrom payload) ∧
      annotateAppWithin cfg dataText 85 base payload = some (annotateApp cfg dataText base payload) := by
  have := carried_length h
  have := layers_le payload
  exact ⟨(C156_parse_iff _ _).1 (by omega), C156_annotate _ _ _ _ _ (by omega)⟩

theorem layers_nested (n : Nat) : layers ((List.replicate n [0x8C, 0x00, 0x00]).flatten ++ [0x78]) = n := by
  induction n with
  | zero => rfl
  | succ n ih => simpa [List.replicate_succ, layers] using ih

/-- C156 is false of bytes that do not come from a telegram: however large the stack is, there are bytes on which the parser
of the application layer exhausts it. -/
theorem C156_fails (room : Nat) : ∃ data, UserDataBlock.tryFromWithin room data = none :=
  ⟨_, (C156_parse_iff room _).2 (layers_nested room).ge⟩

/-- A telegram that needs all of the 85 calls. -/
example : ∃ data payload, HandsOver data payload ∧ UserDataBlock.tryFromWithin 84 payload = none :=
  ⟨longFrameBytes 0x68 0x08 0x05 ((List.replicate 84 [0x8C, 0x00, 0x00]).flatten ++ [0x78]), _,
    .wired (.rspUd false false) (addressOf 5) (.long _ _ _ _ _ .rspUd00 (by decide) (by decide +kernel)),
    (C156_parse_iff 84 _).2 (layers_nested 84).ge⟩

end MBus
