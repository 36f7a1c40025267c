import Verif.Lemmas.Json
import Verif.Lemmas.OutputFields
import Verif.Lemmas.RecordOutput
import Verif.Lemmas.Display
/-! Lemmas about the members of the serialised structs. -/
namespace MBus
open Spec

/-- The member with a name. -/
def member (ms : List (List Char × Doc)) (name : String) : Option Doc :=
  (ms.find? (fun m => m.1 = name.toList)).map (·.2)

theorem follow_key (name : String) (rest : List Step) (ms : List (List Char × Doc)) :
    follow (.key name :: rest) (.obj ms) = (member ms name).bind (follow rest) := rfl

theorem follow_at (i : Nat) (rest : List Step) (xs : List Doc) :
    follow (.at i :: rest) (.arr xs) = xs[i]?.bind (follow rest) := rfl

theorem follow_nil (d : Doc) : follow [] d = some d := by cases d <;> rfl

theorem member_nil (name : String) : member [] name = none := rfl

theorem member_append (a b : List (List Char × Doc)) (name : String) :
    member (a ++ b) name = (member a name).or (member b name) := by
  unfold member
  rw [List.find?_append]
  cases a.find? (fun m => m.1 = name.toList) <;> simp

theorem member_field (n name : String) (d : Doc) :
    member (field n d) name = if n = name then some d else none := by
  unfold member field
  by_cases h : n = name
  · simp [h]
  · have : ¬ n.toList = name.toList := fun e => h (String.toList_inj.1 e)
    simp [h, this]

theorem member_opt {α : Type} (n name : String) (f : α → Doc) (o : Option α) :
    member (fieldOpt n f o) name = if n = name then o.map f else none := by
  cases o with
  | none => simp [fieldOpt, member_nil]
  | some a => exact member_field n name (f a)

theorem member_vec {α : Type} (n name : String) (f : α → Doc) (l : List α) :
    member (fieldVec n f l) name = if n = name ∧ l ≠ [] then some (.arr (l.map f)) else none := by
  cases l with
  | nil => simp [fieldVec, member_nil]
  | cons a l =>
    have := member_field n name (.arr ((a :: l).map f))
    simpa [fieldVec, field] using this

theorem doc_nat (n : Nat) : Doc.nat n = number n := by
  unfold Doc.nat number
  rw [natText_eq]

theorem vec_at {α : Type} (f : α → Doc) (l : List α) (i : Nat) (rest : List Step) :
    (if l ≠ [] then some (Doc.arr (l.map f)) else none).bind (follow (.at i :: rest)) =
      l[i]?.bind (fun a => follow rest (f a)) := by
  cases l with
  | nil => simp
  | cons a l =>
    simp only [ne_eq, reduceCtorEq, not_false_eq_true, ite_true, Option.bind_some, follow_at,
      List.getElem?_map, Option.bind_map]
    rfl

theorem identity_shown (i : MeterIdentity) : ∀ f ∈ identityFields (some i), follow f.1 i.doc = f.2 := by
  obtain ⟨source, id, code, version, dt, dtc⟩ := i
  simp only [identityFields, List.forall_mem_cons, MeterIdentity.doc, follow_key, member_append,
    member_field, member_opt, follow_nil, doc_nat]
  cases id <;> cases code <;> cases version <;> cases dt <;> cases dtc <;> simp

theorem no_identity : ∀ f ∈ identityFields none, f.2 = none := by
  simp [identityFields]

/-- Following the members of an optional struct. -/
theorem bind_map_opt {α β : Type} (o : Option α) (g : α → Option β) (f : β → Doc) (d : α → Doc)
    (path : List Step) (h : ∀ a, follow path (d a) = (g a).map f) :
    (o.map d).bind (follow path) = (o.bind g).map f := by
  cases o with
  | none => rfl
  | some a => exact h a

theorem map_opt {α : Type} (o : Option α) (f : α → Doc) (d : α → Doc)
    (path : List Step) (h : ∀ a, follow path (d a) = some (f a)) :
    (o.map d).bind (follow path) = o.map f := by
  cases o with
  | none => rfl
  | some a => exact h a

macro "look" : tactic => `(tactic| simp [follow_key, follow_nil, member_append, member_field, member_opt,
  member_vec, doc_nat])

theorem ell_shown (e : EllOutput) :
    follow [.key "communication_control"] e.doc = some (.str e.communicationControl) ∧
    follow [.key "access_number"] e.doc = some (number e.accessNumber.toNat) ∧
    follow [.key "receiver_manufacturer"] e.doc = e.receiverManufacturer.map Doc.str ∧
    follow [.key "receiver_address"] e.doc = e.receiverAddress.map Doc.str ∧
    follow [.key "session_number"] e.doc = e.sessionNumber.map Doc.str ∧
    follow [.key "payload_crc"] e.doc = e.payloadCrc.map Doc.str := by
  obtain ⟨a, b, c, d, e, f⟩ := e
  unfold EllOutput.doc
  cases c <;> cases d <;> cases e <;> cases f <;> look

/-- The members of the whole document. -/
theorem top_shown (env : TextEnv) (o : DecodedOutput) (p : List Step) :
    follow (.key "schema_version" :: p) (o.doc env) = follow p (number 3) ∧
    follow (.key "decode_state" :: p) (o.doc env) = follow p (.str o.decodeState) ∧
    follow (.key "protocol" :: p) (o.doc env) = follow p (.str o.protocol) ∧
    follow (.key "frame" :: p) (o.doc env) = follow p o.frame.doc ∧
    follow (.key "meter" :: p) (o.doc env) = follow p o.meter.doc ∧
    follow (.key "transport" :: p) (o.doc env) = follow p o.transport.doc ∧
    follow (.key "security" :: p) (o.doc env) = follow p o.security.doc ∧
    follow (.key "records" :: p) (o.doc env) = follow p (.arr (o.records.map (RecordOutput.doc env))) ∧
    follow (.key "raw" :: p) (o.doc env) = follow p o.raw.doc ∧
    follow (.key "diagnostics" :: p) (o.doc env) = follow p (.arr (o.diagnostics.map Diagnostic.doc)) ∧
    follow (.key "enrichment" :: p) (o.doc env) = (o.enrichment.map EnrichmentOutput.doc).bind (follow p) := by
  unfold DecodedOutput.doc
  look

theorem frame_shown (f : FrameOutput) :
    follow [.key "kind"] f.doc = some (.str f.kind) ∧
    follow [.key "function"] f.doc = f.function.map Doc.str ∧
    follow [.key "address"] f.doc = f.address.map Doc.str ∧
    follow [.key "control_field"] f.doc = f.controlField.map Doc.str := by
  obtain ⟨a, b, c, d⟩ := f
  unfold FrameOutput.doc
  cases b <;> cases c <;> cases d <;> look

theorem meter_shown (m : MeterOutput) (p : List Step) :
    follow (.key "identity" :: p) m.doc = (m.identity.map MeterIdentity.doc).bind (follow p) ∧
    follow (.key "alternate_identities" :: p) m.doc =
      (if m.alternateIdentities ≠ [] then some (Doc.arr (m.alternateIdentities.map MeterIdentity.doc))
        else none).bind (follow p) := by
  unfold MeterOutput.doc
  look

theorem transport_shown (t : TransportOutput) (p : List Step) :
    follow [.key "header_kind"] t.doc = t.headerKind.map Doc.str ∧
    follow (.key "access_numbers" :: p) t.doc =
      (if t.accessNumbers ≠ [] then some (Doc.arr (t.accessNumbers.map sourcedDoc)) else none).bind (follow p) ∧
    follow (.key "statuses" :: p) t.doc =
      (if t.statuses ≠ [] then some (Doc.arr (t.statuses.map SourcedStatus.doc)) else none).bind (follow p) ∧
    follow (.key "configuration" :: p) t.doc = (t.configuration.map configurationDoc).bind (follow p) ∧
    follow (.key "ell" :: p) t.doc = (t.ell.map EllOutput.doc).bind (follow p) := by
  unfold TransportOutput.doc
  refine ⟨?_, by look, by look, by look, by look⟩
  cases t.headerKind <;> look

theorem configuration_shown (c : List Char × List Char) :
    follow [.key "source"] (configurationDoc c) = some (.str c.1) ∧
    follow [.key "raw"] (configurationDoc c) = some (.str c.2) := by
  unfold configurationDoc
  look

theorem security_shown (s : SecurityOutput) :
    follow [.key "payload_protection"] s.doc = some (.str s.payloadProtection) ∧
    follow [.key "mode"] s.doc = s.mode.map Doc.str ∧
    follow [.key "mode_code"] s.doc = s.modeCode.map (fun c => number c.toNat) ∧
    follow [.key "decryption_state"] s.doc = some (.str s.decryptionState) ∧
    follow [.key "key_supplied"] s.doc = some (.bool s.keySupplied) ∧
    follow [.key "encrypted_payload_hex"] s.doc = s.encryptedPayloadHex.map Doc.str ∧
    follow [.key "decrypted_payload_hex"] s.doc = s.decryptedPayloadHex.map Doc.str := by
  obtain ⟨a, b, c, d, e, f, g⟩ := s
  unfold SecurityOutput.doc
  cases b <;> cases c <;> cases f <;> cases g <;> look

theorem raw_shown (r : RawOutput) :
    follow [.key "input"] r.doc = r.input.map Doc.str ∧
    follow [.key "original_frame_hex"] r.doc = some (.str r.originalFrameHex) ∧
    follow [.key "normalized_frame_hex"] r.doc = some (.str r.normalizedFrameHex) ∧
    follow [.key "byte_length"] r.doc = some (number r.byteLength) ∧
    follow [.key "format_a_crc_stripped"] r.doc = some (.bool r.formatACrcStripped) ∧
    follow [.key "payload_hex"] r.doc = r.payloadHex.map Doc.str := by
  obtain ⟨a, b, c, d, e, f⟩ := r
  unfold RawOutput.doc
  cases a <;> cases f <;> look

theorem enrichment_shown (e : EnrichmentOutput) :
    follow [.key "source"] e.doc = some (.str e.source) ∧
    follow [.key "manufacturer_code"] e.doc = some (.str e.manufacturerCode) ∧
    follow [.key "manufacturer_name"] e.doc = some (.str e.info.name.toList) ∧
    follow [.key "manufacturer_website"] e.doc = some (.str e.info.website.toList) ∧
    follow [.key "manufacturer_description"] e.doc = some (.str e.info.description.toList) := by
  unfold EnrichmentOutput.doc
  look

theorem diagnostic_shown (d : Diagnostic) : ∀ f ∈ diagnosticFields d, follow f.1 d.doc = f.2 := by
  obtain ⟨a, b, c, e, f⟩ := d
  unfold Diagnostic.doc
  simp only [diagnosticFields, List.forall_mem_cons]
  cases f <;> look

theorem telegram_shown (env : TextEnv) (o : DecodedOutput) :
    ∀ f ∈ telegramFields o, follow f.1 (o.doc env) = f.2 := by
  have ht := top_shown env o
  have hf := frame_shown o.frame
  have hm := meter_shown o.meter
  have hp := transport_shown o.transport
  have hs := security_shown o.security
  have hr := raw_shown o.raw
  intro f hf'
  rw [telegramFields, List.mem_append] at hf'
  rcases hf' with hf' | hf'
  · revert f
    simp only [List.forall_mem_cons, List.not_mem_nil, false_imp_iff, implies_true, and_true]
    refine ⟨?_, ?_, ?_, ?_, ?_, ?_, ?_, ?_, ?_, ?_, ?_, ?_, ?_, ?_, ?_, ?_, ?_, ?_, ?_, ?_, ?_, ?_, ?_, ?_, ?_,
      ?_, ?_, ?_, ?_, ?_, ?_, ?_, ?_, ?_⟩
    · rw [(ht _).1, follow_nil]
    · rw [(ht _).2.1, follow_nil]
    · rw [(ht _).2.2.1, follow_nil]
    · rw [(ht _).2.2.2.1]; exact hf.1
    · rw [(ht _).2.2.2.1]; exact hf.2.1
    · rw [(ht _).2.2.2.1]; exact hf.2.2.1
    · rw [(ht _).2.2.2.1]; exact hf.2.2.2
    · rw [(ht _).2.2.2.2.2.1]; exact (hp []).1
    · rw [(ht _).2.2.2.2.2.1, (hp _).2.2.2.1]
      exact map_opt _ _ _ _ (fun c => (configuration_shown c).1)
    · rw [(ht _).2.2.2.2.2.1, (hp _).2.2.2.1]
      exact map_opt _ _ _ _ (fun c => (configuration_shown c).2)
    · rw [(ht _).2.2.2.2.2.1, (hp _).2.2.2.2]
      exact map_opt _ _ _ _ (fun e => (ell_shown e).1)
    · rw [(ht _).2.2.2.2.2.1, (hp _).2.2.2.2]
      exact map_opt _ _ _ _ (fun e => (ell_shown e).2.1)
    · rw [(ht _).2.2.2.2.2.1, (hp _).2.2.2.2]
      exact bind_map_opt _ _ _ _ _ (fun e => (ell_shown e).2.2.1)
    · rw [(ht _).2.2.2.2.2.1, (hp _).2.2.2.2]
      exact bind_map_opt _ _ _ _ _ (fun e => (ell_shown e).2.2.2.1)
    · rw [(ht _).2.2.2.2.2.1, (hp _).2.2.2.2]
      exact bind_map_opt _ _ _ _ _ (fun e => (ell_shown e).2.2.2.2.1)
    · rw [(ht _).2.2.2.2.2.1, (hp _).2.2.2.2]
      exact bind_map_opt _ _ _ _ _ (fun e => (ell_shown e).2.2.2.2.2)
    · rw [(ht _).2.2.2.2.2.2.1]; exact hs.1
    · rw [(ht _).2.2.2.2.2.2.1]; exact hs.2.1
    · rw [(ht _).2.2.2.2.2.2.1]; exact hs.2.2.1
    · rw [(ht _).2.2.2.2.2.2.1]; exact hs.2.2.2.1
    · rw [(ht _).2.2.2.2.2.2.1]; exact hs.2.2.2.2.1
    · rw [(ht _).2.2.2.2.2.2.1]; exact hs.2.2.2.2.2.1
    · rw [(ht _).2.2.2.2.2.2.1]; exact hs.2.2.2.2.2.2
    · rw [(ht _).2.2.2.2.2.2.2.2.1]; exact hr.1
    · rw [(ht _).2.2.2.2.2.2.2.2.1]; exact hr.2.1
    · rw [(ht _).2.2.2.2.2.2.2.2.1]; exact hr.2.2.1
    · rw [(ht _).2.2.2.2.2.2.2.2.1]; exact hr.2.2.2.1
    · rw [(ht _).2.2.2.2.2.2.2.2.1]; exact hr.2.2.2.2.1
    · rw [(ht _).2.2.2.2.2.2.2.2.1]; exact hr.2.2.2.2.2
    · rw [(ht _).2.2.2.2.2.2.2.2.2.2]; exact map_opt _ _ _ _ (fun e => (enrichment_shown e).1)
    · rw [(ht _).2.2.2.2.2.2.2.2.2.2]; exact map_opt _ _ _ _ (fun e => (enrichment_shown e).2.1)
    · rw [(ht _).2.2.2.2.2.2.2.2.2.2]; exact map_opt _ _ _ _ (fun e => (enrichment_shown e).2.2.1)
    · rw [(ht _).2.2.2.2.2.2.2.2.2.2]; exact map_opt _ _ _ _ (fun e => (enrichment_shown e).2.2.2.1)
    · rw [(ht _).2.2.2.2.2.2.2.2.2.2]; exact map_opt _ _ _ _ (fun e => (enrichment_shown e).2.2.2.2)
  · obtain ⟨g, hg, rfl⟩ := List.mem_map.1 hf'
    show follow (.key "meter" :: .key "identity" :: g.1) (o.doc env) = g.2
    rw [(ht _).2.2.2.2.1, (hm _).1]
    cases hi : o.meter.identity with
    | none => rw [hi] at hg; rw [no_identity g hg]; rfl
    | some i => rw [hi] at hg; exact identity_shown i g hg

/-! ## Records -/

/-- The values of records: reals are finite, and the parts of a date are texts or numbers with different
names. -/
def PlainValue : Option Json → Prop
  | some (.real bits) => FiniteReal bits
  | some (.obj ms) => (ms.map (·.1)).Nodup ∧ ∀ m ∈ ms, (∃ t, m.2 = .str t) ∨ ∃ n, m.2 = .nat n
  | _ => True

theorem insertMember_perm (m : List Char × Json) (l : List (List Char × Json)) :
    (insertMember m l).Perm (m :: l) := by
  induction l with
  | nil => exact .refl _
  | cons x l ih =>
    unfold insertMember
    split
    · exact .refl _
    · exact (ih.cons x).trans (.swap _ _ _)

theorem sortedMembers_perm (l : List (List Char × Json)) : (sortedMembers l).Perm l := by
  unfold sortedMembers
  induction l with
  | nil => exact .refl _
  | cons m l ih => exact (insertMember_perm _ _).trans (ih.cons m)

theorem find_unique {l : List (List Char × Doc)} (hn : (l.map (·.1)).Nodup) {m : List Char × Doc}
    (hm : m ∈ l) : l.find? (fun x => x.1 = m.1) = some m := by
  induction l with
  | nil => cases hm
  | cons x l ih =>
    rw [List.map_cons, List.nodup_cons] at hn
    rw [List.mem_cons] at hm
    rcases hm with rfl | hm
    · simp
    · have : x.1 ≠ m.1 := fun e => hn.1 (e ▸ List.mem_map_of_mem hm)
      rw [List.find?_cons_of_neg (by simpa using this)]
      exact ih hn.2 hm

theorem value_shown (env : TextEnv) (v : Option Json) (hv : PlainValue v) :
    ∀ f ∈ valueFields env v, (v.map (Json.doc env)).bind (follow f.1) = f.2 := by
  match v, hv with
  | none, _ => simp [valueFields]
  | some (.str t), _ => simp [valueFields, Json.doc, partDoc, follow_nil]
  | some (.nat n), _ => simp [valueFields, Json.doc, partDoc, follow_nil, doc_nat]
  | some (.real b), _ => simp [valueFields, Json.doc, partDoc, follow_nil]
  | some (.obj ms), hv =>
    intro f hf
    obtain ⟨m, hm, rfl⟩ := List.mem_map.1 hf
    have hp := sortedMembers_perm ms
    have hmem : m ∈ sortedMembers ms := hp.mem_iff.2 hm
    have hnd : ((sortedMembers ms).map (·.1)).Nodup := (hp.map _).nodup_iff.2 hv.1
    have := find_unique (l := (sortedMembers ms).map (fun m => (m.1, partDoc env m.2)))
      (by simpa [List.map_map, Function.comp_def] using hnd) (List.mem_map_of_mem hmem)
    rcases m with ⟨k, j⟩
    simp only [Option.map_some, Option.bind_some, Json.doc, follow_key, member, String.toList_ofList]
    rw [this]
    rcases hv.2 _ hm with ⟨t, h⟩ | ⟨n, h⟩
    · simp only at h; subst h; rfl
    · simp only at h; subst h; simp [partDoc, doc_nat, follow_nil]

theorem record_top (env : TextEnv) (r : RecordOutput) (p : List Step) :
    follow (.key "value" :: .key "value" :: p) (r.doc env) = (r.value.value.map (Json.doc env)).bind (follow p) := by
  unfold RecordOutput.doc ValueOutput.doc
  look

theorem record_shown (env : TextEnv) (r : RecordOutput) (hv : PlainValue r.value.value) :
    ∀ f ∈ recordFields env r, follow f.1 (r.doc env) = f.2 := by
  intro f hf
  rw [recordFields, List.mem_append] at hf
  rcases hf with hf | hf
  · revert f
    unfold RecordOutput.doc ValueOutput.doc
    simp only [List.forall_mem_cons, List.not_mem_nil, false_imp_iff, implies_true, and_true]
    cases r.unit <;> look
  · obtain ⟨g, hg, rfl⟩ := List.mem_map.1 hf
    show follow (.key "value" :: .key "value" :: g.1) (r.doc env) = g.2
    rw [record_top]
    exact value_shown env _ hv g hg

/-! ## Soundness of the document -/

/-- Members with names among the given ones and sound values. -/
def SoundMembers (names : List (List Char)) (ms : List (List Char × Doc)) : Prop :=
  (ms.map (·.1)).Sublist names ∧ ∀ m ∈ ms, Sound m.2

theorem sm_field {n : String} {d : Doc} (h : Sound d) : SoundMembers [n.toList] (field n d) :=
  ⟨.refl _, by simpa [field] using h⟩

theorem sm_opt {α : Type} {n : String} {f : α → Doc} {o : Option α} (h : ∀ a, o = some a → Sound (f a)) :
    SoundMembers [n.toList] (fieldOpt n f o) := by
  cases o with
  | none => exact ⟨by simp [fieldOpt], by simp [fieldOpt]⟩
  | some a => exact sm_field (h a rfl)

theorem sm_vec {α : Type} {n : String} {f : α → Doc} {l : List α} (h : ∀ a ∈ l, Sound (f a)) :
    SoundMembers [n.toList] (fieldVec n f l) := by
  cases l with
  | nil => exact ⟨by simp [fieldVec], by simp [fieldVec]⟩
  | cons a l =>
    refine sm_field (d := .arr ((a :: l).map f)) (.arr _ ?_)
    intro x hx
    obtain ⟨b, hb, rfl⟩ := List.mem_map.1 hx
    exact h b hb

theorem sm_append {a b : List (List Char)} {x y : List (List Char × Doc)} (h1 : SoundMembers a x)
    (h2 : SoundMembers b y) : SoundMembers (a ++ b) (x ++ y) := by
  refine ⟨by rw [List.map_append]; exact h1.1.append h2.1, ?_⟩
  intro m hm
  rw [List.mem_append] at hm
  exact hm.elim (h1.2 m) (h2.2 m)

theorem sm_obj {names : List (List Char)} {ms : List (List Char × Doc)} (h : SoundMembers names ms)
    (hn : names.Nodup) : Sound (.obj ms) := .obj ms (hn.sublist h.1) h.2

theorem decimal_number (n : Nat) : NumberText (decimal n) := by
  have key : ∀ n, (decimal n = ['0'] ∧ n = 0) ∨ ∃ d ds, decimal n = d :: ds ∧ '1' ≤ d ∧ d ≤ '9' ∧ JsonDigits ds := by
    intro n
    induction n using Nat.strongRecOn with
    | _ n ih =>
      rw [decimal]
      by_cases h : n < 10
      · rw [if_pos h]
        rcases Nat.eq_zero_or_pos n with rfl | hp
        · exact .inl ⟨by decide, rfl⟩
        · right
          refine ⟨_, [], rfl, ?_, ?_, by intro c hc; cases hc⟩
          · interval_cases n <;> decide
          · interval_cases n <;> decide
      · rw [if_neg h]
        right
        rcases ih (n / 10) (by omega) with ⟨_, h0⟩ | ⟨d, ds, h1, h2, h3, h4⟩
        · omega
        · refine ⟨d, ds ++ [Char.ofNat ('0'.toNat + n % 10)], by rw [h1]; rfl, h2, h3, ?_⟩
          intro c hc
          rw [List.mem_append, List.mem_singleton] at hc
          rcases hc with hc | rfl
          · exact h4 c hc
          · have : ∀ k < 10, '0' ≤ Char.ofNat ('0'.toNat + k) ∧ Char.ofNat ('0'.toNat + k) ≤ '9' := by decide
            exact this _ (Nat.mod_lt _ (by decide))
  refine ⟨[], decimal n, [], [], by simp, .inl rfl, ?_, .inl rfl, .inl rfl⟩
  rcases key n with ⟨h, _⟩ | h
  · exact .inl h
  · exact .inr h

theorem sound_nat (n : Nat) : Sound (Doc.nat n) := by
  rw [doc_nat]; exact .num _ (decimal_number n)

/-- The library prints finite reals as numbers. -/
def PrintsNumbers (env : TextEnv) : Prop := ∀ bits, FiniteReal bits → NumberText (env.realText bits)

theorem sound_json (env : TextEnv) (he : PrintsNumbers env) (j : Json) (hj : PlainValue (some j)) :
    Sound (j.doc env) := by
  cases j with
  | str t => exact .str t
  | nat n => exact sound_nat n
  | real b => exact .num _ (he b hj)
  | obj ms =>
    refine .obj _ ?_ ?_
    · have : ((sortedMembers ms).map (·.1)).Nodup := ((sortedMembers_perm ms).map _).nodup_iff.2 hj.1
      simpa [List.map_map, Function.comp_def] using this
    · intro m hm
      obtain ⟨x, hx, rfl⟩ := List.mem_map.1 hm
      rcases hj.2 x ((sortedMembers_perm ms).mem_iff.1 hx) with ⟨t, h⟩ | ⟨n, h⟩
      · simp only [h]; exact .str t
      · simp only [h]; exact sound_nat n

theorem sound_identity (i : MeterIdentity) : Sound i.doc :=
  sm_obj (sm_append (sm_append (sm_append (sm_append (sm_append (sm_field (.str _))
    (sm_opt fun _ _ => .str _)) (sm_opt fun _ _ => .str _)) (sm_opt fun _ _ => sound_nat _))
    (sm_opt fun _ _ => .str _)) (sm_opt fun _ _ => sound_nat _)) (by decide +kernel)

theorem sound_frame (f : FrameOutput) : Sound f.doc :=
  sm_obj (sm_append (sm_append (sm_append (sm_field (.str _)) (sm_opt fun _ _ => .str _))
    (sm_opt fun _ _ => .str _)) (sm_opt fun _ _ => .str _)) (by decide +kernel)

theorem sound_meter (m : MeterOutput) : Sound m.doc :=
  sm_obj (sm_append (sm_opt fun _ _ => sound_identity _) (sm_vec fun _ _ => sound_identity _))
    (by decide +kernel)

theorem sound_ell (e : EllOutput) : Sound e.doc :=
  sm_obj (sm_append (sm_append (sm_append (sm_append (sm_append (sm_field (.str _)) (sm_field (sound_nat _)))
    (sm_opt fun _ _ => .str _)) (sm_opt fun _ _ => .str _)) (sm_opt fun _ _ => .str _))
    (sm_opt fun _ _ => .str _)) (by decide +kernel)

theorem sound_transport (t : TransportOutput) : Sound t.doc :=
  sm_obj (sm_append (sm_append (sm_append (sm_append (sm_opt fun _ _ => .str _)
    (sm_vec fun _ _ => sm_obj (sm_append (sm_field (.str _)) (sm_field (sound_nat _))) (by decide +kernel)))
    (sm_vec fun _ _ => sm_obj (sm_append (sm_append (sm_field (.str _)) (sm_field (.str _)))
      (sm_field (.str _))) (by decide +kernel)))
    (sm_opt fun _ _ => sm_obj (sm_append (sm_field (.str _)) (sm_field (.str _))) (by decide +kernel)))
    (sm_opt fun _ _ => sound_ell _)) (by decide +kernel)

theorem sound_security (s : SecurityOutput) : Sound s.doc :=
  sm_obj (sm_append (sm_append (sm_append (sm_append (sm_append (sm_append (sm_field (.str _))
    (sm_opt fun _ _ => .str _)) (sm_opt fun _ _ => sound_nat _)) (sm_field (.str _))) (sm_field (.bool _)))
    (sm_opt fun _ _ => .str _)) (sm_opt fun _ _ => .str _)) (by decide +kernel)

theorem sound_raw (r : RawOutput) : Sound r.doc :=
  sm_obj (sm_append (sm_append (sm_append (sm_append (sm_append (sm_opt fun _ _ => .str _)
    (sm_field (.str _))) (sm_field (.str _))) (sm_field (sound_nat _))) (sm_field (.bool _)))
    (sm_opt fun _ _ => .str _)) (by decide +kernel)

theorem sound_diagnostic (d : Diagnostic) : Sound d.doc :=
  sm_obj (sm_append (sm_append (sm_append (sm_append (sm_field (.str _)) (sm_field (.str _)))
    (sm_field (.str _))) (sm_field (.str _))) (sm_opt fun _ _ => sound_nat _)) (by decide +kernel)

theorem sound_enrichment (e : EnrichmentOutput) : Sound e.doc :=
  sm_obj (sm_append (sm_append (sm_append (sm_append (sm_field (.str _)) (sm_field (.str _)))
    (sm_field (.str _))) (sm_field (.str _))) (sm_field (.str _))) (by decide +kernel)

theorem sound_array {α : Type} {f : α → Doc} {l : List α} (h : ∀ a ∈ l, Sound (f a)) :
    Sound (.arr (l.map f)) := by
  refine .arr _ ?_
  intro x hx
  obtain ⟨b, hb, rfl⟩ := List.mem_map.1 hx
  exact h b hb

theorem sound_record (env : TextEnv) (he : PrintsNumbers env) (r : RecordOutput)
    (hv : PlainValue r.value.value) : Sound (r.doc env) :=
  sm_obj (sm_append (sm_append (sm_append (sm_append (sm_append (sm_append (sm_append (sm_append (sm_append
    (sm_append (sm_field (sound_nat _)) (sm_field (.str _))) (sm_field (sound_nat _)))
    (sm_field (sound_nat _))) (sm_field (sound_nat _))) (sm_field (sound_array fun _ _ => .str _)))
    (sm_field (sm_obj (sm_append (sm_field (.str _))
      (sm_opt fun j hj => sound_json env he j (hj ▸ hv))) (by decide +kernel))))
    (sm_opt fun _ _ => .str _)) (sm_field (.str _))) (sm_field (.str _))) (sm_field (.str _)))
    (by decide +kernel)

theorem sound_telegram (env : TextEnv) (he : PrintsNumbers env) (o : DecodedOutput)
    (hv : ∀ r ∈ o.records, PlainValue r.value.value) : Sound (o.doc env) :=
  sm_obj (sm_append (sm_append (sm_append (sm_append (sm_append (sm_append (sm_append (sm_append (sm_append
    (sm_append (sm_field (sound_nat _)) (sm_field (.str _))) (sm_field (.str _)))
    (sm_field (sound_frame _))) (sm_field (sound_meter _))) (sm_field (sound_transport _)))
    (sm_field (sound_security _)))
    (sm_field (sound_array fun r hr => sound_record env he r (hv r hr))))
    (sm_field (sound_raw _))) (sm_field (sound_array fun _ _ => sound_diagnostic _)))
    (sm_opt fun _ _ => sound_enrichment _)) (by decide +kernel)

/-! ## The lists -/

theorem lists_shown (env : TextEnv) (o : DecodedOutput) (hv : ∀ r ∈ o.records, PlainValue r.value.value) :
    ShowsTelegram env o (o.doc env) := by
  have ht := top_shown env o
  have hm := meter_shown o.meter
  have hp := transport_shown o.transport
  have main : ∀ l ∈ telegramLists env o, ∀ (i : Nat) (rest : List Step), ∃ g : Option Doc,
      follow (l.1 ++ .at i :: rest) (o.doc env) = g.bind (follow rest) ∧
      (l.2.length ≤ i → g = none) ∧
      ∀ (h : i < l.2.length), ∃ d, g = some d ∧ ∀ f ∈ l.2[i], follow f.1 d = f.2 := by
    have vec : ∀ {α : Type} (f : α → Doc) (xs : List α) (fields : α → List (List Step × Option Doc)),
        (∀ a ∈ xs, ∀ p ∈ fields a, follow p.1 (f a) = p.2) → ∀ (i : Nat) (rest : List Step),
        ∃ g : Option Doc, xs[i]?.bind (fun a => follow rest (f a)) = g.bind (follow rest) ∧
          ((xs.map fields).length ≤ i → g = none) ∧
          ∀ (h : i < (xs.map fields).length), ∃ d, g = some d ∧ ∀ p ∈ (xs.map fields)[i], follow p.1 d = p.2 := by
      intro α f xs fields hf i rest
      refine ⟨xs[i]?.map f, by cases xs[i]? <;> rfl, ?_, ?_⟩
      · intro h; rw [List.length_map] at h; simp [h]
      · intro h
        rw [List.length_map] at h
        refine ⟨f xs[i], by simp [h], ?_⟩
        simp only [List.getElem_map]
        exact hf _ (List.getElem_mem h)
    simp only [telegramLists, List.forall_mem_cons, List.not_mem_nil, false_imp_iff, implies_true, and_true]
    refine ⟨?_, ?_, ?_, ?_, ?_⟩
    · intro i rest
      simp only [List.cons_append, List.nil_append]
      rw [(ht _).2.2.2.2.2.2.2.1, follow_at, List.getElem?_map, Option.bind_map]
      exact vec _ _ _ (fun r hr => record_shown env r (hv r hr)) i rest
    · intro i rest
      simp only [List.cons_append, List.nil_append]
      rw [(ht _).2.2.2.2.2.2.2.2.2.1, follow_at, List.getElem?_map, Option.bind_map]
      exact vec _ _ _ (fun d _ => diagnostic_shown d) i rest
    · intro i rest
      simp only [List.cons_append, List.nil_append]
      rw [(ht _).2.2.2.2.1, (hm _).2, vec_at]
      exact vec _ _ _ (fun d _ => identity_shown d) i rest
    · intro i rest
      simp only [List.cons_append, List.nil_append]
      rw [(ht _).2.2.2.2.2.1, (hp _).2.1, vec_at]
      exact vec _ _ _ (fun p _ => by unfold sourcedDoc; look) i rest
    · intro i rest
      simp only [List.cons_append, List.nil_append]
      rw [(ht _).2.2.2.2.2.1, (hp _).2.2.1, vec_at]
      exact vec _ _ _ (fun p _ => by unfold SourcedStatus.doc; look) i rest
  refine ⟨telegram_shown env o, ?_, ?_⟩
  · intro l hl i h f hf
    obtain ⟨g, h1, -, h3⟩ := main l hl i f.1
    obtain ⟨d, rfl, h4⟩ := h3 h
    rw [List.append_assoc, List.singleton_append, h1]
    exact h4 f hf
  · intro l hl i h
    obtain ⟨g, h1, h2, -⟩ := main l hl i []
    rw [h1, h2 h]; rfl

end MBus
