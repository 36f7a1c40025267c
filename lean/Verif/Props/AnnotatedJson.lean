import Verif.Lemmas.JsonFields
import Verif.Spec.AnnotatedJson
/-!
# C114: the JSON of the annotated view
-/
namespace MBus
open MBus.Spec

theorem segment_shown (s : ByteSegment) : ∀ f ∈ segmentFields s, follow f.1 s.doc = f.2 := by
  obtain ⟨a, b, k, d, g, l⟩ := s
  simp only [segmentFields, List.forall_mem_cons, ByteSegment.doc, follow_key, member_append, member_field,
    follow_nil, doc_nat]
  cases g <;> simp

theorem bytes_shown (bytes : List UInt8) (i : Nat) :
    follow [.at i] (bytesDoc bytes) = bytes[i]?.map (number ·.toNat) := by
  unfold bytesDoc
  rw [follow_at, List.getElem?_map]
  cases bytes[i]? <;> simp [follow_nil, doc_nat]

theorem segments_shown (segs : List ByteSegment) (i : Nat) (p : List Step) :
    follow (.at i :: p) (.arr (segs.map ByteSegment.doc)) = segs[i]?.bind (fun s => follow p s.doc) := by
  rw [follow_at, List.getElem?_map]
  cases segs[i]? <;> simp

theorem view_shown (v : AnnotatedView) : ShowsView v v.doc := by
  have top : ∀ p, follow (.key "bytes" :: p) v.doc = follow p (bytesDoc v.bytes) ∧
      follow (.key "segments" :: p) v.doc = follow p (.arr (v.segments.map ByteSegment.doc)) ∧
      follow (.key "schema_version" :: p) v.doc = follow p (number 3) ∧
      follow (.key "decrypted" :: p) v.doc = follow p (.bool v.decrypted) := by
    intro p; unfold AnnotatedView.doc; look
  refine ⟨by rw [(top _).2.2.1, follow_nil], by rw [(top _).2.2.2, follow_nil], ⟨?_, ?_, ?_⟩, ?_⟩
  · intro i; rw [List.nil_append, (top _).1, bytes_shown]
  · intro i hi f hf
    rw [List.nil_append, (top _).2.1, segments_shown, List.getElem?_eq_getElem hi]
    exact segment_shown _ f hf
  · intro i hi
    rw [List.nil_append, (top _).2.1, segments_shown, List.getElem?_eq_none hi]; rfl
  · cases ho : v.original with
    | none => show follow [.key "original"] v.doc = none; unfold AnnotatedView.doc; rw [ho]; look
    | some o =>
      have inner : ∀ p, follow (.key "original" :: .key "bytes" :: p) v.doc = follow p (bytesDoc o.1) ∧
          follow (.key "original" :: .key "segments" :: p) v.doc =
            follow p (.arr (o.2.map ByteSegment.doc)) := by
        intro p; unfold AnnotatedView.doc; rw [ho]; look
      refine ⟨?_, ?_, ?_⟩
      · intro i
        have := (inner [.at i]).1
        rw [bytes_shown] at this
        exact this
      · intro i hi f hf
        have := (inner (.at i :: f.1)).2
        rw [segments_shown, List.getElem?_eq_getElem hi] at this
        exact this.trans (segment_shown _ f hf)
      · intro i hi
        have := (inner [.at i]).2
        rw [segments_shown, List.getElem?_eq_none hi] at this
        exact this

theorem sound_segment (s : ByteSegment) : Sound s.doc := by
  have hg : Sound (match s.group with | some g => Doc.nat g | none => .null) := by
    cases s.group with
    | none => exact .null
    | some g => exact sound_nat g
  exact sm_obj (sm_append (sm_append (sm_append (sm_append (sm_append (sm_field (.str _)) (sm_field (sound_nat _)))
    (sm_field hg)) (sm_field (.str _))) (sm_field (.str _))) (sm_field (sound_nat _))) (by decide +kernel)

theorem sound_bytes (bytes : List UInt8) : Sound (bytesDoc bytes) :=
  sound_array fun _ _ => sound_nat _

theorem sound_view (v : AnnotatedView) : Sound v.doc :=
  sm_obj (sm_append (sm_append (sm_append (sm_append (sm_field (sound_bytes _)) (sm_field (.bool _)))
    (sm_opt fun o _ => sm_obj (sm_append (sm_field (sound_bytes _))
      (sm_field (sound_array fun s _ => sound_segment s))) (by decide +kernel)))
    (sm_field (sound_nat _))) (sm_field (sound_array fun s _ => sound_segment s))) (by decide +kernel)

theorem view_json (v : AnnotatedView) : JsonText v.text v.doc :=
  ⟨[], _, [], by simp [AnnotatedView.text], blank_nil, text_reads (sound_view v) true 0, blank_nil⟩

/-- C114: the text of the annotated view is JSON by RFC 8259, without a name used twice in an object, and
whoever reads it finds every byte and every field of every segment of the view, and no more of them; the
original telegram is there exactly if the view is of a decrypted one. -/
theorem C114_annotated (v : AnnotatedView) :
    (∃ d, JsonText v.text d) ∧ ∀ d, JsonText v.text d → UniqueNames d ∧ ShowsView v d := by
  have hs := sound_view v
  have hj := view_json v
  refine ⟨⟨_, hj⟩, fun d h => ?_⟩
  rw [json_eq h hj]
  exact ⟨hs.unique, view_shown v⟩

/-- C114: different kinds and layers have different names. -/
theorem C114_names : (∀ k k' : SegmentKind, k.snakeCase = k'.snakeCase → k = k') ∧
    ∀ l l' : Layer, l.snakeCase = l'.snakeCase → l = l' := by
  constructor
  · intro k k'; cases k <;> cases k' <;> decide
  · intro l l'; cases l <;> cases l' <;> decide

theorem nat_doc_inj {a b : Nat} (h : Doc.nat a = Doc.nat b) : a = b := by
  unfold Doc.nat at h
  injection h with h
  exact natText_inj h

theorem segment_doc_inj {s s' : ByteSegment} (h : s.doc = s'.doc) : s = s' := by
  obtain ⟨a, b, k, d, g, l⟩ := s
  obtain ⟨a', b', k', d', g', l'⟩ := s'
  unfold ByteSegment.doc field at h
  simp only [List.cons_append, List.nil_append, Doc.obj.injEq, List.cons.injEq, Prod.mk.injEq, true_and,
    and_true, Doc.str.injEq] at h
  obtain ⟨h1, h2, h3, h4, h5, h6⟩ := h
  have e2 := nat_doc_inj h2
  have e6 := nat_doc_inj h6
  have e4 := C114_names.1 _ _ (String.toList_inj.1 h4)
  have e5 := C114_names.2 _ _ (String.toList_inj.1 h5)
  have e3 : g = g' := by
    cases g <;> cases g'
    · rfl
    · simp [Doc.nat] at h3
    · simp [Doc.nat] at h3
    · exact congrArg some (nat_doc_inj h3)
  subst h1 e2 e3 e4 e5 e6
  rfl

theorem map_inj {α β : Type} {f : α → β} (hf : ∀ a b, f a = f b → a = b) :
    ∀ {l l' : List α}, l.map f = l'.map f → l = l'
  | [], [], _ => rfl
  | [], _ :: _, h => by simp at h
  | _ :: _, [], h => by simp at h
  | a :: l, b :: l', h => by
    simp only [List.map_cons, List.cons.injEq] at h
    rw [hf a b h.1, map_inj hf h.2]

theorem bytes_doc_inj {a b : List UInt8} (h : bytesDoc a = bytesDoc b) : a = b := by
  unfold bytesDoc at h
  injection h with h
  exact map_inj (fun _ _ e => UInt8.toNat_inj.1 (nat_doc_inj e)) h

/-- C114: two views with the same text are the same: the same bytes, the same segments, and the same
original telegram with its segments. -/
theorem C114_determines (v v' : AnnotatedView) (h : v.text = v'.text) : v = v' := by
  have e : v.doc = v'.doc := json_eq (view_json v) (h ▸ view_json v')
  obtain ⟨b, s, d, o⟩ := v
  obtain ⟨b', s', d', o'⟩ := v'
  unfold AnnotatedView.doc at e
  have segs : ∀ {a b : List ByteSegment}, Doc.arr (a.map ByteSegment.doc) = Doc.arr (b.map ByteSegment.doc) → a = b := by
    intro a b h
    injection h with h
    exact map_inj (fun _ _ e => segment_doc_inj e) h
  cases o <;> cases o' <;>
    simp only [field, fieldOpt, List.cons_append, List.nil_append, Doc.obj.injEq, List.cons.injEq,
      Prod.mk.injEq, true_and, and_true, Doc.bool.injEq] at e
  · obtain ⟨e1, e2, e3⟩ := e
    have := bytes_doc_inj e1; have := segs e3; subst_vars; rfl
  · exact absurd e.2.2.1.1 (by decide +kernel)
  · exact absurd e.2.2.1.1 (by decide +kernel)
  · next o o' =>
    obtain ⟨e1, e2, ⟨e3, e4⟩, e5⟩ := e
    have := bytes_doc_inj e1; have := segs e5; have := bytes_doc_inj e3; have := segs e4
    obtain ⟨x, y⟩ := o
    obtain ⟨x', y'⟩ := o'
    simp only at *
    subst_vars; rfl

/-- C114: whoever asks for the annotated view of a telegram without a key and reads its JSON finds the
bytes of the telegram. -/
theorem C114_bytes (cfg : Cfg) (dt : Data → List Char) (aes : AesBlock) (data : List UInt8)
    (v : AnnotatedView) (h : annotatedView cfg dt aes data none = .ok v) (d : Doc) (hd : JsonText v.text d) :
    follow [.key "decrypted"] d = some (.bool false) ∧ follow [.key "original"] d = none ∧
    ∀ i, follow [.key "bytes", .at i] d = data[i]?.map (number ·.toNat) := by
  unfold annotatedView at h
  cases hs : annotateFrame cfg dt data with
  | err e => rw [hs] at h; cases h
  | panic => rw [hs] at h; cases h
  | ok segs =>
    rw [hs, Res.bind_ok] at h
    cases h
    have hv := ((C114_annotated _).2 d hd).2
    exact ⟨hv.decrypted, hv.original, hv.shown.bytes⟩

/-- The view of an acknowledgement. -/
example (dt : Data → List Char) (aes : AesBlock) : ∃ v, annotatedView ⟨false, false⟩ dt aes [0xE5] none = .ok v ∧
    v.text = ("{\n  \"bytes\": [\n    229\n  ],\n  \"decrypted\": false,\n  \"schema_version\": 3,\n" ++
      "  \"segments\": [\n    {\n      \"detail\": \"Single Character: 0xE5\",\n      \"end\": 1,\n" ++
      "      \"group\": null,\n      \"kind\": \"start_byte\",\n      \"layer\": \"frame\",\n      \"start\": 0\n" ++
      "    }\n  ]\n}").toList :=
  ⟨_, by with_unfolding_all rfl, by with_unfolding_all decide +kernel⟩

end MBus
