import Verif.Lemmas.JsonFields
import Verif.Props.OutputRecords
/-!
# Theorems about the JSON rendering (C112)

`env.realText` is the text the library `serde_json` prints for a 32-bit real; it is assumed to be a number
literal for finite reals.
-/
namespace MBus
open Spec

theorem floatJson_plain (bits : UInt32) : PlainValue (some (floatJson bits)) := by
  unfold floatJson
  split
  · trivial
  split
  · trivial
  split
  · trivial
  · rename_i h1 h2 h3
    show FiniteReal bits
    unfold FiniteReal
    intro h
    have hb : bits.toNat < 2 ^ 32 := bits.toNat_lt
    have e : (bits &&& 0x7FFFFFFF).toNat = bits.toNat % 2 ^ 31 := by
      rw [UInt32.toNat_and]
      exact Nat.and_two_pow_sub_one_eq_mod bits.toNat 31
    have g1 : ¬ (0x7F800000 < bits.toNat % 2 ^ 31) := by
      intro g
      exact h1 (UInt32.lt_iff_toNat_lt.2 (by rw [e]; exact g))
    have g2 : bits.toNat ≠ 0x7F800000 := fun g => h2 (UInt32.toNat_inj.1 g)
    have g3 : bits.toNat ≠ 0xFF800000 := fun g => h3 (UInt32.toNat_inj.1 g)
    omega

theorem temporal_plain (kind : List Char) (day : SEI UInt8) (month : SEI Month) (year : SEI UInt16)
    (hour minute second : Option (SEI UInt8)) :
    PlainValue (temporalValue kind day month year hour minute second).value := by
  have hc : ∀ {α : Type} (f : α → Json) (x : SEI α), (∀ a, (∃ t, f a = .str t) ∨ ∃ n, f a = .nat n) →
      (∃ t, componentJson f x = .str t) ∨ ∃ n, componentJson f x = .nat n := by
    intro α f x hf
    cases x with
    | single a => exact hf a
    | every => exact .inl ⟨_, rfl⟩
    | invalid => exact .inl ⟨_, rfl⟩
  unfold temporalValue
  simp only
  split
  · trivial
  · refine ⟨?_, ?_⟩
    · have hd : (["day".toList, "month".toList, "year".toList, "hour".toList, "minute".toList,
          "second".toList] : List (List Char)).Nodup := by decide +kernel
      refine hd.sublist ?_
      simp only [List.map_append]
      show List.Sublist _ ((["day".toList, "month".toList, "year".toList] ++ ["hour".toList]) ++ ["minute".toList]
        ++ ["second".toList])
      refine List.Sublist.append (List.Sublist.append (List.Sublist.append ?_ ?_) ?_) ?_
      · split <;> simp
      · cases hour <;> simp
      · cases minute <;> simp
      · cases second <;> simp
    · intro m hm
      simp only [List.mem_append] at hm
      have opt : ∀ (name : List Char) (x : Option (SEI UInt8)),
          m ∈ (x.map (fun v => (name, componentJson (fun x : UInt8 => Json.nat x.toNat) v))).toList →
          (∃ t, m.2 = .str t) ∨ ∃ n, m.2 = .nat n := by
        intro name x hx
        cases x with
        | none => simp at hx
        | some v =>
          simp only [Option.map_some, Option.toList_some, List.mem_singleton] at hx
          subst hx
          exact hc _ v (fun a => .inr ⟨_, rfl⟩)
      rcases hm with ((hm | hm) | hm) | hm
      · split at hm
        · simp only [List.mem_cons, List.not_mem_nil, or_false] at hm
          rcases hm with rfl | rfl | rfl
          · exact hc _ day (fun a => .inr ⟨_, rfl⟩)
          · exact hc _ month (fun a => .inl ⟨_, rfl⟩)
          · exact hc _ year (fun a => .inr ⟨_, rfl⟩)
        · cases hm
      · exact opt _ hour hm
      · exact opt _ minute hm
      · exact opt _ second hm

theorem value_plain (r : DataRecord) : PlainValue (valueOutput r).value := by
  unfold valueOutput
  simp only
  split
  · split
    · split
      · exact floatJson_plain _
      · trivial
      · trivial
    · trivial
  · split
    · split
      · exact floatJson_plain _
      · trivial
      · trivial
    · trivial
  · trivial
  · exact temporal_plain _ _ _ _ _ _ _
  · exact temporal_plain _ _ _ _ _ _ _
  · exact temporal_plain _ _ _ _ _ _ _
  · exact temporal_plain _ _ _ _ _ _ _
  · trivial
  · trivial

theorem outputs_plain (rs : List DataRecord) : ∀ r ∈ recordOutputs rs, PlainValue r.value.value := by
  intro r hr
  unfold recordOutputs at hr
  obtain ⟨p, -, rfl⟩ := List.mem_map.1 hr
  exact value_plain p.1

theorem decoded_plain (cfg : Cfg) (aes : AesBlock) (data : List UInt8) (options : DecodeOptions)
    (o : DecodedOutput) (h : decodeBytes cfg aes data options = .ok o) :
    ∀ r ∈ o.records, PlainValue r.value.value := by
  have := decoding cfg aes data options
  rw [h] at this
  generalize hr : (Res.ok o : Res OutputError DecodedOutput) = r at this
  cases this with
  | empty => cases hr
  | crash => cases hr
  | wired g m =>
    obtain ⟨c, outs, err, _, _, _, _, _, ho, _⟩ := finish_ok _ _ _ _ _ _ _ _ _ _ _ _ hr.symm
    rw [ho]; exact outputs_plain outs
  | wireless f m frame =>
    obtain ⟨c, outs, err, _, _, _, _, _, ho, _⟩ := finish_ok _ _ _ _ _ _ _ _ _ _ _ _ hr.symm
    rw [ho]; exact outputs_plain outs
  | neither => cases hr

/-- C112: the JSON of every decoded telegram, indented or compact, is a JSON text by RFC 8259.  The value it
stands for names no member twice and shows every field of the decoded telegram. -/
theorem C112_json (cfg : Cfg) (env : TextEnv) (aes : AesBlock) (data : List UInt8) (options : DecodeOptions)
    (o : DecodedOutput) (henv : ∀ bits, FiniteReal bits → NumberText (env.realText bits))
    (h : decodeBytes cfg aes data options = .ok o) :
    ∃ d, JsonText (renderJson env o) d ∧ JsonText (compactJson (o.doc env)) d ∧ UniqueNames d ∧
      ShowsTelegram env o d := by
  have hp := decoded_plain cfg aes data options o h
  have hs := sound_telegram env henv o hp
  refine ⟨o.doc env, ⟨[], _, [], by simp [renderJson], blank_nil, text_reads hs true 0, blank_nil⟩,
    ⟨[], _, [], by simp [compactJson], blank_nil, text_reads hs false 0, blank_nil⟩, hs.unique, lists_shown env o hp⟩

/-- C112: a JSON text stands for one value. -/
theorem C112_one_meaning (text : List Char) (d d' : Doc) (h : JsonText text d) (h' : JsonText text d') :
    d = d' := json_eq h h'

/-- C112: hence whoever reads the JSON by RFC 8259 finds every field of the decoded telegram. -/
theorem C112_read_back (cfg : Cfg) (env : TextEnv) (aes : AesBlock) (data : List UInt8)
    (options : DecodeOptions) (o : DecodedOutput) (d : Doc)
    (henv : ∀ bits, FiniteReal bits → NumberText (env.realText bits))
    (h : decodeBytes cfg aes data options = .ok o)
    (hd : JsonText (renderJson env o) d ∨ JsonText (compactJson (o.doc env)) d) :
    UniqueNames d ∧ ShowsTelegram env o d := by
  obtain ⟨d', h1, h2, h3, h4⟩ := C112_json cfg env aes data options o henv h
  rcases hd with hd | hd
  · rw [json_eq hd h1]; exact ⟨h3, h4⟩
  · rw [json_eq hd h2]; exact ⟨h3, h4⟩

/-- C112: so two telegrams with the same JSON text are the same bytes. -/
theorem C112_determines (cfg : Cfg) (env : TextEnv) (aes : AesBlock) (data data' : List UInt8)
    (options options' : DecodeOptions) (o o' : DecodedOutput)
    (henv : ∀ bits, FiniteReal bits → NumberText (env.realText bits))
    (h : decodeBytes cfg aes data options = .ok o) (h' : decodeBytes cfg aes data' options' = .ok o')
    (he : renderJson env o = renderJson env o') : data = data' := by
  obtain ⟨d, h1, -, -, h2⟩ := C112_json cfg env aes data options o henv h
  obtain ⟨d', h1', -, -, h2'⟩ := C112_json cfg env aes data' options' o' henv h'
  rw [← he] at h1'
  have := json_eq h1 h1'
  subst this
  have e1 := h2.fields ([.key "raw", .key "original_frame_hex"], some (.str o.raw.originalFrameHex))
    (by simp [telegramFields])
  have e2 := h2'.fields ([.key "raw", .key "original_frame_hex"], some (.str o'.raw.originalFrameHex))
    (by simp [telegramFields])
  rw [e1] at e2
  simp only [Option.some.injEq, Doc.str.injEq] at e2
  have g1 := (C84_raw cfg aes data options o h).2.2.1
  have g2 := (C84_raw cfg aes data' options' o' h').2.2.1
  rw [e2, g2] at g1
  injection g1 with g1
  exact g1.symm

/-- C112: the JSON list of records made from a record area alone shows the fields of every record and has no
further elements. -/
theorem C112_records (cfg : Cfg) (env : TextEnv) (data : List UInt8) (rs : List RecordOutput) (d : Doc)
    (henv : ∀ bits, FiniteReal bits → NumberText (env.realText bits))
    (h : decodeDataRecords cfg data = .ok rs)
    (hd : JsonText (compactJson (.arr (rs.map (RecordOutput.doc env)))) d) :
    UniqueNames d ∧ (∀ i (hi : i < rs.length), ∀ f ∈ recordFields env rs[i], follow (.at i :: f.1) d = f.2) ∧
      ∀ i, rs.length ≤ i → follow [.at i] d = none := by
  have hp : ∀ r ∈ rs, PlainValue r.value.value := by
    unfold decodeDataRecords at h
    split at h
    · cases h
    · split at h
      · cases h
      · cases h
      · cases h; exact outputs_plain _
  have hs : Sound (.arr (rs.map (RecordOutput.doc env))) :=
    sound_array fun r hr => sound_record env henv r (hp r hr)
  have hj : JsonText (compactJson (.arr (rs.map (RecordOutput.doc env)))) (.arr (rs.map (RecordOutput.doc env))) :=
    ⟨[], _, [], by simp [compactJson], blank_nil, text_reads hs false 0, blank_nil⟩
  rw [json_eq hd hj]
  refine ⟨hs.unique, ?_, ?_⟩
  · intro i hi f hf
    rw [follow_at, List.getElem?_map, List.getElem?_eq_getElem hi]
    exact record_shown env _ (hp _ (List.getElem_mem hi)) f hf
  · intro i hi
    rw [follow_at, List.getElem?_map, List.getElem?_eq_none hi]
    rfl

/-- An environment as assumed. -/
def sampleEnv : TextEnv := ⟨fun _ => "1.5e-3".toList, fun _ => some 1, List.length, fun _ => "0.0015".toList⟩

theorem sampleEnv_numbers : ∀ bits, FiniteReal bits → NumberText (sampleEnv.realText bits) :=
  fun _ _ => ⟨[], ['1'], ['.', '5'], ['e', '-', '3'], rfl, .inl rfl,
    .inr ⟨'1', [], rfl, by decide, by decide, by intro c hc; cases hc⟩,
    .inr ⟨['5'], rfl, by decide, by unfold JsonDigits; decide⟩,
    .inr ⟨'e', ['-'], ['3'], rfl, .inl rfl, .inr (.inr rfl), by decide, by unfold JsonDigits; decide⟩⟩

/-- A telegram and its JSON. -/
example (aes : AesBlock) : ∃ o, decodeBytes ⟨false, false⟩ aes [0xE5] ⟨none, true⟩ = .ok o ∧
    compactJson (o.doc sampleEnv) =
      ("{\"schema_version\":3,\"decode_state\":\"complete\",\"protocol\":\"wired\"," ++
        "\"frame\":{\"kind\":\"single_character\"},\"meter\":{},\"transport\":{}," ++
        "\"security\":{\"payload_protection\":\"cleartext\",\"decryption_state\":\"not_applicable\"," ++
        "\"key_supplied\":false},\"records\":[]," ++
        "\"raw\":{\"original_frame_hex\":\"E5\",\"normalized_frame_hex\":\"E5\",\"byte_length\":1," ++
        "\"format_a_crc_stripped\":false},\"diagnostics\":[]}").toList := by
  refine ⟨_, by with_unfolding_all rfl, ?_⟩
  with_unfolding_all decide +kernel

/-- A record area of two records is decoded. -/
example : ∃ rs, decodeDataRecords ⟨false, false⟩ [0x01, 0x03, 0x0F, 0x02, 0x5B, 0x10, 0x00] = .ok rs ∧
    rs.length = 2 :=
  ⟨_, by with_unfolding_all rfl, by with_unfolding_all decide +kernel⟩

/-- The grammar reads escapes and blanks. -/
example : JsonText [' ', '"', 'a', '\\', 'u', '0', '0', '4', '1', '\\', 'n', '"', ' ']
    (.str ['a', 'A', '\n']) :=
  ⟨[' '], ['"', 'a', '\\', 'u', '0', '0', '4', '1', '\\', 'n', '"'], [' '], rfl, by unfold JsonBlank; decide,
    .str (t := ['a', '\\', 'u', '0', '0', '4', '1', '\\', 'n'])
      (.plain 'a' (by decide) (by decide) (by decide)
        (.unicode (h := ['0', '0', '4', '1']) 'A' ⟨'0', '0', '4', '1', 0, 0, 4, 1, rfl, rfl, rfl, rfl, rfl, rfl⟩
          (.short 'n' '\n' (by decide) .nil))),
    by unfold JsonBlank; decide⟩

end MBus
