import Verif.Spec.SentTooltip
import Verif.Props.Sent
import Verif.Props.Display
import Verif.Lemmas.AnnotateAgree
/-!
# Lemmas for C138: the texts of the data fields of a message
-/
namespace MBus
open MBus.Spec

theorem states_int (rt : UInt32 → List Char) (d : Data) (v : Int)
    (h : d.value = some (.number (.int (roundF64 v))) ∨ d.value = some (.lossyNumber (.int (roundF64 v)))) :
    StatesNumber v (d.display rt) := by
  have hn := roundF64_nearest v
  obtain ⟨w, h1, h2, h3⟩ := C104_number rt _ hn.1
  have hd : d.display rt = DataType.display rt (.number (.int (roundF64 v))) := by
    unfold Data.display
    rcases h with h | h <;> rw [h] <;> rfl
  refine .inl ⟨w, roundF64 v, hd.trans h1, h2, hn, fun hs => ?_⟩
  have hr : roundF64 v = v := roundF64_small _ (by omega)
  rw [h3 (by rw [hr]; exact hs), hr]

theorem twosComplement_low (n : Nat) (v : Int) (h8 : 8 ≤ n) (h1 : -(2 ^ 63) ≤ v) (h2 : v < 2 ^ 63) :
    twosComplement ((encodeLe n v).take 8) = v := by
  have key : ∀ (k n : Nat) (v : Int), k ≤ n → (encodeLe n v).take k = encodeLe k v := by
    intro k
    induction k with
    | zero => intro n v _; cases n <;> rfl
    | succ k ih =>
      intro n v h
      obtain ⟨n, rfl⟩ : ∃ m, n = m + 1 := ⟨n - 1, by omega⟩
      simp only [encodeLe, List.take_succ_cons, ih n _ (by omega)]
  rw [key 8 n v h8]
  exact twosComplement_encodeLe 8 v (by norm_num; omega) (by norm_num; omega)

theorem bcd_states (cfg : Cfg) (rt : UInt32 → List Char) (neg : Bool) (b : UInt8) (rest : List UInt8) (n v : Nat) (d : Data)
    (hk : lvar b = some (if neg then .negativeBcd else .positiveBcd, n)) (hl : n ≤ rest.length)
    (he : rest.take n = encodeBcd n v) (hn : n ≤ 7) (hv : v < 100 ^ n)
    (h : Coding.variableLength.parse cfg false (b :: rest) = .ok d) :
    StatesNumber (if neg then -(v : Int) else v) (d.display rt) := by
  obtain ⟨w, h1, h2, -⟩ := (C31_bcd cfg false neg b rest n hk hl).2 (by rw [he]; exact encodeBcd_isBcd n v)
  have hw := h2 hn
  simp only [Bool.false_eq_true, if_false, he, bcdValue_encodeBcd, Nat.mod_eq_of_lt hv] at hw
  subst hw
  rw [h1] at h
  injection h with h
  subst h
  have hp : 100 ^ n ≤ 100 ^ 7 := Nat.pow_le_pow_right (by omega) hn
  norm_num at hp
  by_cases hz : (v : Int) = 0 ∧ neg = true
  · right
    refine ⟨by rw [if_pos hz.2, hz.1]; rfl, ?_⟩
    simp only [Data.display, if_pos hz]
    rfl
  · refine states_int rt _ _ (.inl ?_)
    simp only [if_neg hz]
    rw [roundF64_small]
    split <;> omega

theorem decodeTextUnit_utf8 (text : List Char) : decodeTextUnit (utf8 text).reverse = text := by
  unfold decodeTextUnit
  simp only [List.reverse_reverse, (fromUtf8_iff (utf8 text) text).2 rfl]

theorem text_display (cfg : Cfg) (rt : UInt32 → List Char) (data : List UInt8) (r : DataRecord) (di : DataInfo)
    (text : List Char) (h : DataRecord.parse cfg false data = .ok r)
    (hdi : r.header.processed.dataInfo = some di) (hc : di.coding = .variableLength)
    (hd : r.dataBytes = UInt8.ofNat (utf8 text).length :: (utf8 text).reverse)
    (hl : (utf8 text).length < 0xC0) : r.data.display rt = text := by
  obtain ⟨b, rest, kind, n, h1, h2, h3, h4, -⟩ := variable_data cfg false data r di h hdi hc
  rw [hd] at h4
  simp only [List.cons.injEq] at h4
  obtain ⟨hb, h4⟩ := h4
  have hbn : b.toNat = (utf8 text).length := by
    rw [← hb, UInt8.toNat_ofNat']; omega
  have hk : lvar b = some (.text, (utf8 text).length) := by
    unfold lvar
    simp only [hbn]
    rw [if_pos hl]
  rw [hk] at h1
  simp only [Option.some.injEq, Prod.mk.injEq] at h1
  obtain ⟨-, rfl⟩ := h1
  rw [C31_text cfg false b rest _ hk h2] at h3
  injection h3 with h3
  have hv : r.data.value = some (.text (utf8 text).reverse) := by rw [← h3, ← h4]
  unfold Data.display
  rw [hv]
  exact decodeTextUnit_utf8 text

theorem field_display {code : Nat} {content : Content} {field : List UInt8} (h : Field 7 code content field)
    (cfg : Cfg) (rt : UInt32 → List Char) (data : List UInt8) (r : DataRecord) (di : DataInfo)
    (hc : CodingOf content code di.coding) (hp : DataRecord.parse cfg false data = .ok r)
    (hdi : r.header.processed.dataInfo = some di) (hd : r.dataBytes = field) (hf : fits64 content)
    (hne : field ≠ []) (hdt : ∀ a b c d e f, content ≠ .dateTime a b c d e f) :
    StatesContent rt content (r.data.display rt) := by
  cases h with
  | binary _ n v h1 h2 h3 =>
    simp only [CodingOf] at hc
    have hw : integerWidth di.coding = some n := by
      generalize di.coding = c at hc
      simp only [binaryFields, List.mem_cons, List.not_mem_nil, or_false, Prod.mk.injEq] at h1
      rcases h1 with ⟨rfl, rfl⟩ | ⟨rfl, rfl⟩ | ⟨rfl, rfl⟩ | ⟨rfl, rfl⟩ | ⟨rfl, rfl⟩ | ⟨rfl, rfl⟩ <;>
        (simp [codings] at hc; subst hc; rfl)
    have := integer_data cfg false data r di n hp hdi hw
    rw [hd, twosComplement_encodeLe n v h2 h3] at this
    exact states_int rt _ v (.inl this)
  | bcd _ n v h1 h2 =>
    simp only [CodingOf] at hc
    have hw : bcdWidth di.coding = some n := by
      generalize di.coding = c at hc
      simp only [bcdFields, List.mem_cons, List.not_mem_nil, or_false, Prod.mk.injEq] at h1
      rcases h1 with ⟨rfl, rfl⟩ | ⟨rfl, rfl⟩ | ⟨rfl, rfl⟩ | ⟨rfl, rfl⟩ | ⟨rfl, rfl⟩ <;>
        (simp [codings] at hc; subst hc; rfl)
    have := (bcd_data cfg false data r di n hp hdi hw).1
    have hn6 : n ≤ 6 := by
      simp only [bcdFields, List.mem_cons, List.not_mem_nil, or_false, Prod.mk.injEq] at h1
      omega
    have hp : 100 ^ n ≤ 100 ^ 6 := Nat.pow_le_pow_right (by omega) hn6
    rw [hd] at this
    simp only [Bool.false_eq_true, if_false, bcdValue_encodeBcd, Nat.mod_eq_of_lt h2] at this
    refine states_int rt _ v (.inl ?_)
    rw [this, roundF64_small _ (by norm_num at hp ⊢; omega)]
  | variableBinary n v h1 h2 h3 h4 =>
    obtain ⟨b', rest, kind, n', e1, e2, e3, e4, -⟩ := variable_data cfg false data r di hp hdi
      (by simpa [CodingOf, codings] using hc.symm)
    have hk : lvar (UInt8.ofNat (0xE0 + n)) = some (.binary, n) := by
      unfold lvar
      simp only [lvar_ofNat 0xE0 n (by omega)]
      rw [if_neg (by omega), if_neg (by omega), if_neg (by omega), if_pos (by omega)]
      rw [Nat.add_sub_cancel_left]
    rw [hd, List.cons.injEq] at e4
    obtain ⟨rfl, e4⟩ := e4
    rw [hk] at e1
    simp only [Option.some.injEq, Prod.mk.injEq] at e1
    obtain ⟨-, rfl⟩ := e1
    rw [C31_binary cfg false _ rest n hk h1 e2] at e3
    injection e3 with e3
    by_cases h8 : n ≤ 8
    · rw [if_pos h8, ← e4, twosComplement_encodeLe n v h3 h4] at e3
      exact states_int rt _ v (.inl (by rw [← e3]))
    · have : rest.take 8 = (encodeLe n v).take 8 := by
        rw [e4, List.take_take, Nat.min_eq_left (by omega)]
      rw [if_neg h8, this, twosComplement_low n v (by omega) hf.1 hf.2] at e3
      exact states_int rt _ v (.inr (by rw [← e3]))
  | variableBcd n v h1 h2 =>
    obtain ⟨b', rest, kind, n', e1, e2, e3, e4, -⟩ := variable_data cfg false data r di hp hdi
      (by simpa [CodingOf, codings] using hc.symm)
    have hk : lvar (UInt8.ofNat (0xC0 + n)) = some (.positiveBcd, n) := by
      unfold lvar
      simp only [lvar_ofNat 0xC0 n (by omega)]
      rw [if_neg (by omega), if_pos (by omega)]
      simp
    rw [hd, List.cons.injEq] at e4
    obtain ⟨rfl, e4⟩ := e4
    rw [hk] at e1
    simp only [Option.some.injEq, Prod.mk.injEq] at e1
    obtain ⟨-, rfl⟩ := e1
    simpa [StatesContent] using bcd_states cfg rt false _ rest n v _ (by simpa using hk) e2 e4.symm h1 h2 e3
  | variableNegative n v h1 h2 =>
    obtain ⟨b', rest, kind, n', e1, e2, e3, e4, -⟩ := variable_data cfg false data r di hp hdi
      (by simpa [CodingOf, codings] using hc.symm)
    have hk : lvar (UInt8.ofNat (0xD0 + n)) = some (.negativeBcd, n) := by
      unfold lvar
      simp only [lvar_ofNat 0xD0 n (by omega)]
      rw [if_neg (by omega), if_neg (by omega), if_pos (by omega)]
      simp
    rw [hd, List.cons.injEq] at e4
    obtain ⟨rfl, e4⟩ := e4
    rw [hk] at e1
    simp only [Option.some.injEq, Prod.mk.injEq] at e1
    obtain ⟨-, rfl⟩ := e1
    simpa [StatesContent] using bcd_states cfg rt true _ rest n v _ (by simpa using hk) e2 e4.symm h1 h2 e3
  | text t h1 =>
    exact text_display cfg rt data r di t hp hdi (by simpa [CodingOf, codings] using hc.symm) hd h1
  | real bits h1 =>
    obtain ⟨rest, di', hdi', hpp, hdd, -⟩ := dataBytes_eq cfg false data r hp
    rw [hdi] at hdi'
    cases hdi'
    rw [show di.coding = .real32 by simpa [CodingOf, codings] using hc.symm] at hpp
    match rest with
    | [] | [_] | [_, _] | [_, _, _] =>
      rw [C23_real32_truncated cfg false _ (by simp)] at hpp; simp at hpp
    | b0 :: b1 :: b2 :: b3 :: rest =>
      obtain ⟨b, e1, e2⟩ := C23_real32 cfg false b0 b1 b2 b3 rest
      rw [e1] at hpp
      injection hpp with hpp
      have hdb : r.dataBytes = [b0, b1, b2, b3] := by rw [hdd, ← hpp]; rfl
      refine ⟨b, ?_, by rw [← hpp]; rfl⟩
      have := leValue_encodeLe 4 bits
      rw [e2, ← hdb, hd]
      omega
  | date day month year h1 h2 h3 =>
    obtain ⟨rest, di', hdi', hpp, hdd, -⟩ := dataBytes_eq cfg false data r hp
    rw [hdi] at hdi'
    cases hdi'
    rw [show di.coding = .dateTypeG from hc] at hpp
    match rest with
    | [] | [_] => rw [C25_date_g_truncated cfg false _ (by simp)] at hpp; simp at hpp
    | b0 :: b1 :: rest =>
      obtain ⟨_, _, hq, -, -⟩ := C25_date_g cfg false b0 b1 rest
      have hsz : r.data.size = 2 := by rw [hq] at hpp; injection hpp with hpp; rw [← hpp]
      rw [hd, hsz] at hdd
      have hb : b0 :: b1 :: rest = encodeDateG day month year ++ rest := by rw [hdd]; rfl
      rw [hb] at hpp
      obtain ⟨v, name, g1, g2, g3⟩ := C104_date cfg rt false day month year rest h1 h2 (by omega)
      rw [g1] at hpp
      injection hpp with hpp
      exact ⟨name, g2, by rw [← hpp]; exact g3⟩
  | dateTime => exact absurd rfl (hdt _ _ _ _ _ _)
  | dateTimeSeconds => exact absurd rfl (hdt _ _ _ _ _ _)
  | nothing => exact absurd rfl hne
  | selection => exact absurd rfl hne

theorem field_empty {code : Nat} {content : Content} (h : Field 7 code content []) : content = .nothing := by
  generalize hf : ([] : List UInt8) = field at h
  cases h with
  | binary _ n v h1 =>
    have := congrArg List.length hf
    rw [encodeLe_length] at this
    simp only [binaryFields, List.mem_cons, List.not_mem_nil, or_false, Prod.mk.injEq] at h1
    simp only [List.length_nil] at this
    omega
  | bcd _ n v h1 =>
    have := congrArg List.length hf
    rw [encodeBcd_length] at this
    simp only [bcdFields, List.mem_cons, List.not_mem_nil, or_false, Prod.mk.injEq] at h1
    simp only [List.length_nil] at this
    omega
  | real bits h1 =>
    have := congrArg List.length hf
    rw [encodeLe_length] at this
    simp at this
  | nothing => rfl
  | selection => rfl
  | _ => cases hf

/-! ## The records -/

theorem dataSegments_append (xs ys : List ByteSegment) (i : Nat) :
    dataSegments (xs ++ ys) i = dataSegments xs i ++ dataSegments ys i := by
  simp [dataSegments]

theorem dataSegments_none (xs : List ByteSegment) (i : Nat)
    (h : ∀ s ∈ xs, s.group ≠ some i ∨ s.kind ≠ .dataPayload) : dataSegments xs i = [] := by
  unfold dataSegments
  rw [List.filter_eq_nil_iff]
  intro s hs
  rcases h s hs with h | h <;> simp [h]

theorem states_around (rt : UInt32 → List Char) (data : List UInt8) (xs ys zs : List ByteSegment) (i : Nat)
    (r : MeterReading) (hx : ∀ s ∈ xs, s.group ≠ some i ∨ s.kind ≠ .dataPayload)
    (hz : ∀ s ∈ zs, s.group ≠ some i ∨ s.kind ≠ .dataPayload) (h : StatesReading rt data ys i r) :
    StatesReading rt data (xs ++ (ys ++ zs)) i r := by
  unfold StatesReading
  rw [dataSegments_append, dataSegments_append, dataSegments_none xs i hx, dataSegments_none zs i hz,
    List.nil_append, List.append_nil]
  exact h

theorem message_annotated (cfg : Cfg) (rt : UInt32 → List Char) (readings : List MeterReading) (d : List UInt8)
    (h : Message 7 readings d) (hr : ∀ r ∈ readings, Readable r) (hf : ∀ r ∈ readings, fits64 r.content)
    (data P S : List UInt8) (hd : data = P ++ (d ++ S)) (i : Nat) :
    ∃ vs, annotateRecordsFrom cfg (Data.display rt) P.length i d = .ok vs ∧
      (∀ s ∈ vs, ∀ g, s.group = some g → i ≤ g) ∧
      ∀ j r, readings[j]? = some r → StatesReading rt data vs (i + j) r := by
  induction h generalizing P i with
  | nil => exact ⟨[], by rw [annotateRecordsFrom], by simp, by simp⟩
  | filler readings d _ ih =>
    obtain ⟨vs, h1, h2, h3⟩ := ih hr hf (P ++ [0x2F]) (by rw [hd]; simp) i
    rw [List.length_append, List.length_singleton] at h1
    refine ⟨recordSeg P.length (P.length + 1) .idleFiller "Idle Filler: 0x2F".toList none :: vs, ?_, ?_, ?_⟩
    · rw [annotateRecordsFrom, if_pos (by decide), if_pos rfl, h1]; rfl
    · intro s hs g hg
      rcases List.mem_cons.1 hs with rfl | hs
      · cases hg
      · exact h2 s hs g hg
    · intro j r hj
      have := states_around rt data [recordSeg P.length (P.length + 1) .idleFiller "Idle Filler: 0x2F".toList none] vs [] (i + j) r
        (by simp [recordSeg]) (by simp) (h3 j r hj)
      simpa using this
  | reading r record readings d hs _ ih =>
    obtain ⟨hm, hw, hl, hst, hsu⟩ := hr r (by simp)
    obtain ⟨es, hes⟩ := Option.isSome_iff_exists.1 hm
    obtain ⟨rec, h3, h4, h5, -, code, di, h6, h7, h8⟩ := sent_parse cfg r record d es hs hes hw hl hst hsu
    obtain ⟨vs, g1, g2, g3⟩ := ih (fun r hx => hr r (by simp [hx])) (fun r hx => hf r (by simp [hx]))
      (P ++ record) (by rw [hd]; simp) (i + 1)
    obtain ⟨_, c1, c2, _, _⟩ := C29_raw_bytes _ _ _ _ h3
    have hsize := headerSize_eq cfg.plaintextFirst rec.header
    have hlen : rec.size = rec.header.size + rec.dataBytes.length := by
      rw [DataRecord.size, ← c1, List.length_append, c2, hsize]
    have hrl : rec.size = record.length := by rw [DataRecord.size, h4]
    have hstep : annotateRecordsFrom cfg (Data.display rt) P.length i (record ++ d) =
        .ok ((recordHeaderSegs P.length i (record ++ d) rec).1 ++
          (if rec.size - rec.header.size > 0 then
            [recordSeg (P.length + rec.header.size) (P.length + rec.size) .dataPayload (rec.data.display rt) (some i)]
          else []) ++ vs) := by
      cases record with
      | nil => cases hs
      | cons b record =>
        have hb : ¬ b &&& 0x0F = 0x0F := fun hh => h5 b (by simp) ((lowNibble_iff b).1 hh)
        rw [List.length_append, ← hrl] at g1
        have := annotate_step cfg (Data.display rt) P.length i b (record ++ d) rec hb h3
        rw [List.cons_append, this, show (b :: (record ++ d)).drop rec.size = d by
          rw [hrl, ← List.cons_append, List.drop_left], g1]
        rfl
    have hhead : ∀ s ∈ (recordHeaderSegs P.length i (record ++ d) rec).1, s.group = some i ∧ s.kind ≠ .dataPayload :=
      recordHeaderSegs_all _ _ _ _ _ (fun a b k x hk => ⟨rfl, by rintro rfl; simp [recordSeg] at hk⟩)
    refine ⟨_, hstep, ?_, ?_⟩
    · intro s hs g hg
      simp only [List.mem_append, or_assoc] at hs
      rcases hs with hs | hs | hs
      · rw [(hhead s hs).1] at hg; cases hg; exact le_rfl
      · split at hs
        · simp only [List.mem_singleton] at hs; subst hs; cases hg; exact le_rfl
        · cases hs
      · have := g2 s hs g hg; omega
    · intro j q hj
      rcases j with _ | j
      · simp only [List.getElem?_cons_zero, Option.some.injEq] at hj
        subst hj
        rw [List.append_assoc]
        refine states_around rt data _ _ vs (i + 0) r (fun s hs => .inr (hhead s hs).2) ?_ ?_
        · intro s hs
          left
          intro hg
          have := g2 s hs _ hg
          omega
        · by_cases he : rec.dataBytes = []
          · left
            rw [he] at h6 hlen
            refine ⟨field_empty h6, ?_⟩
            rw [if_neg (by simp at hlen; omega)]
            rfl
          · right
            have hp : 0 < rec.dataBytes.length := List.length_pos_iff.2 he
            rw [if_pos (by omega)]
            refine ⟨_, code, by simp [dataSegments, recordSeg]; rfl, ?_, ?_⟩
            · have : markedBytes data (recordSeg (P.length + rec.header.size) (P.length + rec.size) .dataPayload
                  (rec.data.display rt) (some i)) = rec.dataBytes := by
                unfold markedBytes recordSeg
                refine slice_mid (P := P ++ rec.headerBytes) (S := d ++ S) ?_ _ _ ?_ ?_
                · rw [hd, ← h4, ← c1]; simp
                · rw [List.length_append, c2, hsize]
                · simp only; omega
              exact this ▸ h6
            · exact field_display h6 cfg rt _ rec di h8 h3 h7 rfl (hf r (by simp)) he
                (not_dateTime r (hr r (by simp)).2.1 (hr r (by simp)).2.2.2.2)
      · simp only [List.getElem?_cons_succ] at hj
        have := g3 j q hj
        rw [show i + 1 + j = i + (j + 1) by omega] at this
        have hx := states_around rt data ((recordHeaderSegs P.length i (record ++ d) rec).1 ++
          (if rec.size - rec.header.size > 0 then
            [recordSeg (P.length + rec.header.size) (P.length + rec.size) .dataPayload (rec.data.display rt) (some i)]
          else [])) vs [] (i + (j + 1)) q ?_ (by simp) this
        · simpa using hx
        · intro s hs
          left
          have : s.group = some i := by
            rcases List.mem_append.1 hs with hs | hs
            · exact (hhead s hs).1
            · split at hs
              · simp only [List.mem_singleton] at hs; subst hs; rfl
              · cases hs
          rw [this]
          simp only [ne_eq, Option.some.injEq]
          omega

/-! ## The application layer -/

theorem variableData_clear (cfg : Cfg) (dt : Data → List Char) (base : Nat) (d : List UInt8) :
    variableDataSegs cfg dt false base d = annotateRecords cfg dt base d := by
  simp [variableDataSegs]

theorem clear_app (cfg : Cfg) (dt : Data → List Char) (payload d : List UInt8) (h : ClearData payload d) :
    ∃ k, payload.length = k + d.length ∧ payload.drop k = d ∧
      ∀ base, ∃ head, (∀ s ∈ head, s.group = none) ∧
        ∀ vs, annotateRecords cfg dt (base + k) d = .ok vs → annotateApp cfg dt base payload = .ok (head ++ vs) := by
  have hclear : ∀ c0 c1 : UInt8, c1.toNat % 32 = 0 → configEncrypted c0 c1 = false := by
    intro c0 c1 hc
    rw [configEncrypted_iff, mode_bytes]
    simp [hc]
  induction h with
  | long reversed i0 i1 i2 i3 m0 m1 ver dev acc st c0 c1 b hb hc =>
    refine ⟨13, by simp; omega, rfl, fun base => ⟨longTplSegs base (longCi reversed :: i0 :: i1 :: i2 :: i3 :: m0 :: m1 :: ver :: dev :: acc :: st :: c0 :: c1 :: b), ?_, fun vs hv => ?_⟩⟩
    rotate_left
    · simp only [List.cons_append, List.nil_append]
      rw [annotateApp, if_pos (by cases reversed <;> decide), if_neg (by simp)]
      have := hclear c0 c1 hc
      simp only [List.getD_cons_succ, List.getD_cons_zero, List.drop_succ_cons, List.drop_zero, byteOr0,
        List.getElem?_cons_succ, List.getElem?_cons_zero, Option.getD_some]
      rw [this, variableData_clear, hv]
      rfl
    · simp [longTplSegs, headerSeg]
  | short ci acc st c0 c1 b hci hc =>
    obtain ⟨n1, n2, n3, n4⟩ := shortCi_ite ci hci
    have e1 : shortTplSkip ci = 1 := by simp [shortTplSkip, n4]
    have e2 : shortTplOffset ci = 5 := by simp [shortTplOffset, n4]
    refine ⟨5, by simp; omega, rfl, fun base => ⟨shortTplSegs base (ci :: acc :: st :: c0 :: c1 :: b) ci, ?_, fun vs hv => ?_⟩⟩
    rotate_left
    · simp only [List.cons_append, List.nil_append]
      rw [annotateApp, if_neg (by simp [n1, n2]), if_pos n3, e1, e2, if_neg (by simp)]
      have := hclear c0 c1 hc
      simp only [List.drop_succ_cons, List.drop_zero, byteOr0,
        List.getElem?_cons_succ, List.getElem?_cons_zero, Option.getD_some]
      rw [this, variableData_clear, hv]
      rfl
    · simp [shortTplSegs, headerSeg, n4]
  | shortA0 x acc st c0 c1 b hc =>
    refine ⟨6, by simp; omega, rfl, fun base => ⟨shortTplSegs base (0xA0 :: x :: acc :: st :: c0 :: c1 :: b) 0xA0, ?_, fun vs hv => ?_⟩⟩
    rotate_left
    · simp only [List.cons_append, List.nil_append]
      rw [annotateApp, if_neg (by decide), if_pos (by decide),
        show shortTplSkip 0xA0 = 2 from rfl, show shortTplOffset 0xA0 = 6 from rfl, if_neg (by simp)]
      have := hclear c0 c1 hc
      simp only [List.drop_succ_cons, List.drop_zero, byteOr0,
        List.getElem?_cons_succ, List.getElem?_cons_zero, Option.getD_some]
      rw [this, variableData_clear, hv]
      rfl
    · simp [shortTplSegs, headerSeg]
  | noTpl b =>
    refine ⟨1, by simp; omega, rfl, fun base => ⟨[headerSeg base (base + 1) .ciField "CI: 0x78 (Application Layer, no TPL header)".toList], ?_, fun vs hv => ?_⟩⟩
    rotate_left
    · simp only [List.cons_append, List.nil_append]
      rw [annotateApp, if_neg (by decide), if_neg (by decide), if_pos (by decide), recordsIfAny_eq, variableData_clear, hv]
      rfl
    · simp [headerSeg]
  | ellI cc acc inner d hin hr ih =>
    obtain ⟨k, k1, k2, k3⟩ := ih
    refine ⟨3 + k, by simp; omega, by rw [← k2, Nat.add_comm]; rfl, fun base => ?_⟩
    obtain ⟨head, k4, k5⟩ := k3 (base + 3)
    refine ⟨[headerSeg base (base + 1) .ciField "CI: 0x8C (ELL I)".toList,
          headerSeg (base + 1) (base + 3) .extendedLinkLayer "ELL I: CC + Access Number".toList] ++ head, ?_, fun vs hv => ?_⟩
    rotate_left
    · simp only [List.cons_append, List.nil_append]
      rw [annotateApp, if_neg (by decide), if_neg (by decide), if_neg (by decide), if_pos (by decide), if_neg (by simp)]
      simp only [List.drop_succ_cons, List.drop_zero]
      rw [k5 vs (by rw [← hv]; congr 1; omega)]
      rfl
    · intro s hs
      rcases List.mem_append.1 hs with hs | hs
      · simp only [List.mem_cons, List.not_mem_nil, or_false] at hs
        rcases hs with rfl | rfl <;> simp [headerSeg]
      · exact k4 s hs

/-! ## The telegram -/

theorem wired_annotated (cfg : Cfg) (dt : Data → List Char) (data : List UInt8) (fn : Function) (address : Address)
    (payload : List UInt8) (hw : WiredTelegram data (.longFrame fn address payload)) (hne : payload ≠ []) :
    ∃ P S head post, data = P ++ (payload ++ S) ∧ (∀ s, s ∈ head ∨ s ∈ post → s.group = none) ∧
      ∀ app, annotateApp cfg dt P.length payload = .ok app →
        annotateFrame cfg dt data = .ok (head ++ (app ++ post)) := by
  have hf := (C01_wired_accepts_exactly_telegrams cfg data _).2 hw
  cases hw with
  | long x c a _ _ hfn hc hl =>
    have hl : (longFrameBytes x c a payload).length = payload.length + 8 := by simp [longFrameBytes]
    have he : payload.isEmpty = false := by cases payload <;> simp_all
    obtain ⟨head, post, hh, hp, hann⟩ : ∃ head post : List ByteSegment, (∀ s ∈ head, s.group = none) ∧
        (∀ s ∈ post, s.group = none) ∧ ∀ app, annotateApp cfg dt 6 payload = .ok app →
          annotateLong cfg dt (longFrameBytes x c a payload) fn (addressOf a) payload false =
            .ok (head ++ (app ++ post)) := by
      refine ⟨[ frameSeg 0 1 .startByte "Start: 0x68".toList,
        frameSeg 1 3 .length ("Length: ".toList ++ natDisplay (byteOr0 (longFrameBytes x c a payload) 1).toNat ++ " (repeated)".toList),
        frameSeg 3 4 .startByte "Start: 0x68 (repeated)".toList,
        frameSeg 4 5 .cField ("C Field: ".toList ++ frameFunctionName fn
          ++ (if false then " (Control)" else "").toList),
        frameSeg 5 6 .aField ("Address: ".toList ++ (addressOf a).display) ],
        [frameSeg (6 + payload.length) (6 + payload.length + 1) .checksum
          ("Checksum: 0x".toList ++ hexString [byteOr0 (longFrameBytes x c a payload) (6 + payload.length)]),
        frameSeg (6 + payload.length + 1) (6 + payload.length + 1 + 1) .stopByte "Stop: 0x16".toList],
        by simp [frameSeg], by simp [frameSeg], fun app ha => ?_⟩
      unfold annotateLong annotateUserData
      rw [he]
      simp only [Bool.not_false, Bool.and_self, if_true, ha, Res.bind_ok]
      rw [if_pos (show 6 + payload.length < (longFrameBytes x c a payload).length by omega),
        if_pos (show 6 + payload.length + 1 < (longFrameBytes x c a payload).length by omega), append_two]
    refine ⟨[0x68, UInt8.ofNat (payload.length + 2), UInt8.ofNat (payload.length + 2), x, c, a],
      [checksum (c :: a :: payload), 0x16], head, post, by simp [longFrameBytes],
      fun s hs => hs.elim (hh s) (hp s), fun app ha => ?_⟩
    have hw' : annotateWired cfg dt (longFrameBytes x c a payload) = .ok (head ++ (app ++ post)) := by
      unfold annotateWired
      rw [hf]
      exact hann app ha
    unfold annotateFrame
    rw [hw']

theorem wireless_annotated (cfg : Cfg) (dt : Data → List Char) (data : List UInt8) (f : WirelessFrame)
    (hn : ∀ g, ¬ WiredTelegram data g) (hb : ¬ BlockAt data 10) (hw : WirelessTelegram data f) (hne : f.data ≠ []) :
    ∃ P S head post, data = P ++ (f.data ++ S) ∧ (∀ s, s ∈ head ∨ s ∈ post → s.group = none) ∧
      ∀ app, annotateApp cfg dt P.length f.data = .ok app →
        annotateFrame cfg dt data = .ok (head ++ (app ++ post)) := by
  have hf := (C12_wireless_accepts_exactly_telegrams data f).2 hw
  have hp := C13_wireless_payload _ _ hf
  have hlen : 11 ≤ data.length := by cases hw; simp
  have hcrc : ∀ n, trailingFrameCrcStart data = some n → 10 ≤ n ∧ n + 2 = data.length := by
    intro n hn
    obtain ⟨body, hi, lo, hd, hb, h10, _⟩ := (C11_trailing_frame_crc_start _ _).1 hn
    rw [hd]; simp; omega
  have hpl : f.data = (data.take ((trailingFrameCrcStart data).getD data.length)).drop 10 := by
    rcases hp with ⟨body, hi, lo, hd, h12, hc, hfd⟩ | ⟨hfd, hno⟩
    · have hbl : body.length + 2 = data.length := by rw [hd]; simp
      have := (C11_trailing_frame_crc_start data body.length).2 ⟨body, hi, lo, hd, rfl, by omega, hc⟩
      rw [hfd, this, hd]
      simp
    · have hn : trailingFrameCrcStart data = none := by
        cases ht : trailingFrameCrcStart data with
        | none => rfl
        | some n =>
          obtain ⟨body, hi, lo, hd, hb, h10, hc⟩ := (C11_trailing_frame_crc_start _ _).1 ht
          exact absurd ⟨body, hi, lo, hd, by rw [hd]; simp; omega, hc⟩ hno
      rw [hfd, hn]
      simp
  have h10 : 10 ≤ (trailingFrameCrcStart data).getD data.length ∧
      (trailingFrameCrcStart data).getD data.length ≤ data.length := by
    cases hc : trailingFrameCrcStart data with
    | none => simp; omega
    | some n => have := hcrc n hc; simp; omega
  have hgt : 10 < (trailingFrameCrcStart data).getD data.length := by
    by_contra hc
    have : (trailingFrameCrcStart data).getD data.length = 10 := by omega
    exact hne (by rw [hpl, this]; simp)
  obtain ⟨head, post, hh, hq, hann⟩ : ∃ head post : List ByteSegment, (∀ s ∈ head, s.group = none) ∧
      (∀ s ∈ post, s.group = none) ∧ ∀ app, annotateApp cfg dt 10 f.data = .ok app →
        annotateWirelessInner cfg dt data = .ok (head ++ (app ++ post)) := by
    let at_ (i : Nat) : List Char := hexString [byteOr0 data i]
    refine ⟨[ frameSeg 0 1 .lField ("L Field: ".toList ++ natDisplay (byteOr0 data 0).toNat),
      frameSeg 1 2 .cField ("C Field: 0x".toList ++ at_ 1),
      frameSeg 2 4 .manufacturerCode ("Manufacturer: 0x".toList ++ at_ 2 ++ at_ 3),
      frameSeg 4 8 .identificationNumber ("ID: ".toList ++ at_ 4 ++ at_ 5 ++ at_ 6 ++ at_ 7),
      frameSeg 8 9 .version ("Version: ".toList ++ natDisplay (byteOr0 data 8).toNat),
      frameSeg 9 10 .deviceType ("Device Type: 0x".toList ++ at_ 9) ],
      (match trailingFrameCrcStart data with
        | some start => [frameSeg start data.length .crc (crcText data start)]
        | none => []), by simp [frameSeg], ?_, fun app ha => ?_⟩
    · intro s hs
      split at hs
      · simp only [List.mem_singleton] at hs; subst hs; rfl
      · cases hs
    · have happ : annotateWirelessApp cfg dt data ((trailingFrameCrcStart data).getD data.length) = .ok app := by
        unfold annotateWirelessApp
        rw [if_pos hgt, slice?, if_pos h10, ← hpl]
        exact ha
      unfold annotateWirelessInner
      rw [hf]
      simp only [Res.mapErr, Res.bind_ok, happ]
      rw [List.append_assoc]
      rfl
  refine ⟨data.take 10, data.drop ((trailingFrameCrcStart data).getD data.length), head, post, ?_,
    fun s hs => hs.elim (hh s) (hq s), fun app ha => ?_⟩
  · rw [hpl]
    generalize (trailingFrameCrcStart data).getD data.length = e at *
    rw [← List.append_assoc]
    have : data.take 10 = (data.take e).take 10 := by rw [List.take_take]; congr 1; omega
    rw [this, List.take_append_drop, List.take_append_drop]
  · rw [List.length_take, show min 10 data.length = 10 by omega] at ha
    have hi := hann app ha
    obtain ⟨e, he⟩ : ∃ e, WiredFrame.tryFrom cfg data = .err e := by
      cases h : WiredFrame.tryFrom cfg data with
      | ok g => exact absurd ((C01_wired_accepts_exactly_telegrams cfg data g).1 h) (hn g)
      | err e => exact ⟨e, rfl⟩
      | panic =>
        obtain ⟨_, _, h45⟩ := (C04_wired_panics_iff cfg data).1 h
        omega
    have hw' := (wired_err_iff cfg dt data ()).2 ⟨e, he⟩
    unfold annotateFrame
    rw [hw']
    simp only
    cases hs : stripFormatACrcs data (List.replicate 512 0) with
    | panic => exact absurd hs (C15_strip_never_panics _ _)
    | err e2 => simp only [hi]
    | ok p =>
      obtain ⟨o, b⟩ := p
      cases o with
      | none => simp only [hi]
      | some stripped =>
        obtain ⟨hd, x, y, tl, tail, hl, hc, hdd, _⟩ := strip_some hs
        exact absurd ⟨hd, x, y, tl, hl, hdd, hc⟩ hb

end MBus
