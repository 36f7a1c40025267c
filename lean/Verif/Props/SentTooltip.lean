import Verif.Lemmas.SentTooltip
import Verif.Props.AnnotateText
/-!
# C138: the texts of values in the annotation
-/
namespace MBus
open MBus.Spec

theorem clear_ne_nil {payload d : List UInt8} (h : ClearData payload d) : payload ≠ [] := by
  cases h <;> simp

/-- C138: whenever a telegram with unencrypted data contains readings a meter sent, it can be annotated, the data field of
each reading is marked by one segment, and the text of that segment states the content of the field.  Missing: integers
of more than 64 bits and of more than 53 bits are not stated exactly, see `C138_fails`; readings that C123 excludes;
Format A framing, for which C95 and C125 relate the annotation to that of the telegram without the CRCs. -/
theorem C138_sent_partial (cfg : Cfg) (realText : UInt32 → List Char) (data : List UInt8) (link : Option ManufacturerId)
    (payload d : List UInt8) (readings : List MeterReading) (ht : Telegram data link payload)
    (hb : link ≠ none → ¬ BlockAt data 10) (hd : ClearData payload d) (hm : Message 7 readings d)
    (hr : ∀ r ∈ readings, Readable r) (hf : ∀ r ∈ readings, fits64 r.content) :
    ∃ segs, annotateFrame cfg (Data.display realText) data = .ok segs ∧
      ∀ i r, readings[i]? = some r → StatesReading realText data segs i r := by
  obtain ⟨k, k1, k2, k3⟩ := clear_app cfg (Data.display realText) payload d hd
  have hframe : ∃ P S head post, data = P ++ (payload ++ S) ∧
      (∀ s : ByteSegment, s ∈ head ∨ s ∈ post → s.group = none) ∧
      ∀ app, annotateApp cfg (Data.display realText) P.length payload = .ok app →
        annotateFrame cfg (Data.display realText) data = .ok (head ++ (app ++ post)) := by
    cases ht with
    | wired fn address _ hw => exact wired_annotated cfg _ data fn address payload hw (clear_ne_nil hd)
    | wireless f frame hn hnorm hw =>
      have hb := hb (by simp)
      have : frame = data := by
        cases hnorm with
        | stripped t _ _ h => exact absurd h hb
        | asIs => rfl
      subst this
      exact wireless_annotated cfg _ frame f hn hb hw (clear_ne_nil hd)
  obtain ⟨P, S, head, post, h1, h2, h3⟩ := hframe
  obtain ⟨ahead, a1, a2⟩ := k3 P.length
  have hpl : payload = payload.take k ++ d := by
    conv_lhs => rw [← List.take_append_drop k payload, k2]
  obtain ⟨vs, v1, -, v3⟩ := message_annotated cfg realText readings d hm hr hf data (P ++ payload.take k) S
    (by rw [h1, List.append_assoc, ← List.append_assoc (payload.take k), ← hpl]) 0
  have hvs : annotateRecords cfg (Data.display realText) (P.length + k) d = .ok vs := by
    rw [List.length_append, List.length_take, show min k payload.length = k by omega] at v1
    exact v1
  refine ⟨_, h3 _ (a2 vs hvs), fun i r hi => ?_⟩
  have := v3 i r hi
  rw [Nat.zero_add] at this
  have e : head ++ (ahead ++ vs ++ post) = (head ++ ahead) ++ (vs ++ post) := by simp
  rw [e]
  refine states_around realText data _ _ _ i r (fun s hs => .inl ?_) (fun s hs => .inl ?_) this
  · rcases List.mem_append.1 hs with hs | hs
    · rw [h2 s (.inl hs)]; simp
    · rw [a1 s hs]; simp
  · rw [h2 s (.inr hs)]; simp

/-- C138 is not vacuous: numbers, a text, a real, a date and a field without data. -/
example (cfg : Cfg) (realText : UInt32 → List Char) :
    ∃ segs, annotateFrame cfg (Data.display realText) (olderWired 0 sentData) = .ok segs ∧
      ∀ i r, sentReadings[i]? = some r → StatesReading realText (olderWired 0 sentData) segs i r :=
  C138_sent_partial cfg realText _ none _ sentData sentReadings
    (wired_telegram _ ([0x72, 0x78, 0x56, 0x34, 0x12, 0x93, 0x15, 0x33, 0x03, 0x2A, 0x00, 0x00, 0] ++ sentData)
      (.rspUd false false) (.primary 5) (by decide +kernel)) (fun h => absurd rfl h)
    (.long false 0x78 0x56 0x34 0x12 0x93 0x15 0x33 0x03 0x2A 0x00 0x00 0 _ (by decide +kernel) (by decide))
    sent_example (by decide +kernel) (by
      intro r hr
      simp only [sentReadings, List.mem_cons, List.not_mem_nil, or_false] at hr
      rcases hr with rfl | rfl | rfl | rfl | rfl | rfl | rfl <;> simp [fits64])

/-- The texts of these readings. -/
example : ∃ segs, annotateFrame cfgRelease (Data.display (fun _ => "1.5".toList)) (olderWired 0 sentData) = .ok segs ∧
    (segs.filter (·.kind == .dataPayload)).map (·.detail) =
      ["-1500", "1234", "A7", "42", "1.5", "15/Jun/24"].map String.toList := by
  obtain ⟨segs, h1, h2⟩ := ok_of_check
    (x := annotateFrame cfgRelease (Data.display (fun _ => "1.5".toList)) (olderWired 0 sentData))
    (fun segs => decide ((segs.filter (·.kind == .dataPayload)).map (·.detail) =
      ["-1500", "1234", "A7", "42", "1.5", "15/Jun/24"].map String.toList)) (by decide +kernel)
  exact ⟨segs, h1, of_decide_eq_true h2⟩

/-- C138 is false of some numbers: 2^53 + 1 is shown as 2^53, and of a number of nine bytes only the eight low ones are
shown. -/
theorem C138_fails :
    (∃ data segs s, Message 7 [⟨0, 0, 0, 0, [0x13], .number (2 ^ 53 + 1)⟩] data ∧
      Telegram (wiredLong (0x78 :: data)) none (0x78 :: data) ∧
      annotateFrame cfgRelease (Data.display (fun _ => [])) (wiredLong (0x78 :: data)) = .ok segs ∧
      dataSegments segs 0 = [s] ∧ s.detail = "9007199254740992".toList ∧
      decimalInt (2 ^ 53 + 1) = "9007199254740993".toList) ∧
    (∃ data segs s, Message 7 [⟨0, 0, 0, 0, [0x13], .number (2 ^ 64 + 5)⟩] data ∧
      Telegram (wiredLong (0x78 :: data)) none (0x78 :: data) ∧
      annotateFrame cfgRelease (Data.display (fun _ => [])) (wiredLong (0x78 :: data)) = .ok segs ∧
      dataSegments segs 0 = [s] ∧ s.detail = "5".toList ∧
      decimalInt (2 ^ 64 + 5) = "18446744073709551621".toList) := by
  have one : ∀ (data : List UInt8) (text : List Char) (fn : Function) (a : Address),
      WiredFrame.tryFrom cfgRelease (wiredLong (0x78 :: data)) = .ok (.longFrame fn a (0x78 :: data)) →
      (match annotateFrame cfgRelease (Data.display (fun _ => [])) (wiredLong (0x78 :: data)) with
        | .ok segs => decide ((dataSegments segs 0).map (·.detail) = [text])
        | _ => false) = true →
      ∃ segs s, Telegram (wiredLong (0x78 :: data)) none (0x78 :: data) ∧
        annotateFrame cfgRelease (Data.display (fun _ => [])) (wiredLong (0x78 :: data)) = .ok segs ∧
        dataSegments segs 0 = [s] ∧ s.detail = text := by
    intro data text fn a h1 h2
    split at h2
    · rename_i segs h3
      obtain ⟨s, h5, h6⟩ := List.map_eq_singleton_iff.1 (of_decide_eq_true h2)
      exact ⟨segs, s, wired_telegram _ _ fn a h1, h3, h5, h6⟩
    · cases h2
  refine ⟨?_, ?_⟩
  · have r := Sent.record (bcdBytes := 7) ⟨0, 0, 0, 0, [0x13], .number (2 ^ 53 + 1)⟩ 0 7 _ (by decide) (by decide)
      (by decide) (by decide) (by decide) (by decide) (by decide)
      (.binary 7 8 (2 ^ 53 + 1) (by decide) (by norm_num) (by norm_num))
    obtain ⟨segs, s, h1, h2, h3, h4⟩ := one [0x07, 0x13, 1, 0, 0, 0, 0, 0, 0x20, 0] "9007199254740992".toList
      (.rspUd false false) (.primary 1) (by decide +kernel) (by decide +kernel)
    exact ⟨_, segs, s, Message.reading _ _ _ _ r .nil, h1, h2, h3, h4, by decide +kernel⟩
  · have r := Sent.record (bcdBytes := 7) ⟨0, 0, 0, 0, [0x13], .number (2 ^ 64 + 5)⟩ 0 13 _ (by decide) (by decide)
      (by decide) (by decide) (by decide) (by decide) (by decide)
      (.variableBinary 9 (2 ^ 64 + 5) (by decide) (by decide) (by norm_num) (by norm_num))
    obtain ⟨segs, s, h1, h2, h3, h4⟩ := one [0x0D, 0x13, 0xE9, 5, 0, 0, 0, 0, 0, 0, 0, 1] "5".toList
      (.rspUd false false) (.primary 1) (by decide +kernel) (by decide +kernel)
    exact ⟨_, segs, s, Message.reading _ _ _ _ r .nil, h1, h2, h3, h4, by decide +kernel⟩

end MBus
