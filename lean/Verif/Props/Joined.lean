import Verif.Spec.Joined
import Verif.Props.OutputRecords
/-!
# C157: the records of data put together are those of the parts
-/
namespace MBus
open MBus.Spec

theorem chain_closed {vif : UInt8} {vifes : List UInt8} {p : Option (List UInt8)} (h : Chain vifes) :
    vibClosed ⟨vif, some vifes, p⟩ := by
  have key : ∀ x : UInt8, ((x :: vifes).getLast (by simp)).toNat < 128 := by
    induction h with
    | last b hb => intro x; simpa using hb
    | more b rest hb hc ih => intro x; rw [List.getLast_cons (by simp)]; exact ih b
  exact key vif

theorem rawHeader_vib {cfg : Cfg} {data : List UInt8} {h : RawHeader} (hh : RawHeader.tryFrom cfg data = .ok h) {v : VIB}
    (hv : h.vib = some v) : ∃ rest, VIB.tryFrom cfg rest = .ok v ∧ data = dibBytes h.dib ++ rest := by
  unfold RawHeader.tryFrom at hh
  rw [Res.bind_eq_ok] at hh
  obtain ⟨dib, h1, h2⟩ := hh
  have h1' : DIB.tryFrom data = .ok dib := by
    cases hd : DIB.tryFrom data <;> rw [hd] at h1 <;> simp_all
  obtain ⟨rest, hr, hs⟩ := dib_prefix data dib h1'
  cases hsp : isSpecialFunction dib.dif with
  | true =>
    rw [hsp] at h2
    simp only [Bool.not_true, Bool.false_eq_true, if_false, Res.ok.injEq] at h2
    subst h2
    cases hv
  | false =>
    rw [hsp] at h2
    have hsl : sliceFrom? data dib.size = some rest := by
      rw [dib_size, sliceFrom?_length _ _ (by rw [hr]; simp), hr]; simp
    simp only [Bool.not_false, if_true, hsl, Res.ofOption_some, Res.bind_ok] at h2
    rw [Res.bind_eq_ok] at h2
    obtain ⟨v', h3, h4⟩ := h2
    have h3' : VIB.tryFrom cfg rest = .ok v' := by
      cases hd : VIB.tryFrom cfg rest <;> rw [hd] at h3 <;> simp_all
    cases h4
    cases hv
    exact ⟨rest, h3', hr⟩

theorem vib_closed {cfg : Cfg} {data : List UInt8} {b : VIB} (h : VIB.tryFrom cfg data = .ok b)
    (hn : vibBytes cfg.plaintextFirst b ≠ data) : vibClosed b := by
  rw [vib_ok] at h
  cases h with
  | single vif rest hv ht => simpa [vibClosed] using hv
  | singleText text rest ht h9 => simp [vibClosed]
  | extended vif vifes rest hv hf hc hl => exact chain_closed hc
  | textLast vifes text rest ht hc hl h9 => exact chain_closed hc
  | textBefore vifes text rest ht hc hl h9 => exact chain_closed hc
  | cutOff vif vifes hv hf ha hl => exact absurd (by simp [textBytes, vibBytes, getD_ifNil]) hn
  | cutOffText vifes text ht ha hl h9 => exact absurd (by simp [textBytes, vibBytes, getD_ifNil, ht]) hn

/-- A record that is followed by something is the same whatever follows it. -/
theorem record_followed {cfg : Cfg} {lsb : Bool} {rest : List UInt8} {r : DataRecord} (hr : rest ≠ [])
    (h : DataRecord.parse cfg lsb (r.rawBytes ++ rest) = .ok r) (suffix : List UInt8) :
    DataRecord.parse cfg lsb (r.rawBytes ++ suffix) = .ok r := by
  obtain ⟨h1, rest', di, hd, hdi, hp, hraw⟩ := (record_ok _ _ _ _).mp h
  have hsz := headerSize_eq cfg.plaintextFirst r.header
  have hl : r.data.size < rest'.length := by
    by_contra hc
    rw [List.take_of_length_le (by omega)] at hraw
    rw [← hraw] at hd
    exact hr (by simpa using hd)
  refine C30_local_partial cfg lsb _ r h ?_ ?_ (by rw [hd, hsz]; simp; omega) suffix
  · intro d hmem ht
    rw [hdi] at hmem
    cases hmem
    rcases ht with ht | ht <;> rw [ht] at hp <;> simp only [Coding.parse, Res.ok.injEq] at hp <;> rw [← hp] at hl <;>
      simp at hl
  · intro v hv
    obtain ⟨h1a, h1b⟩ := recordHeader_ok _ _ _ h1
    obtain ⟨tail, ht, hdata⟩ := rawHeader_vib h1a hv
    refine vib_closed ht fun he => ?_
    rw [hd, headerBytes_eq, hv] at hdata
    simp only [List.append_assoc, List.append_cancel_left_eq] at hdata
    rw [← he] at hdata
    have := congrArg List.length hdata
    simp at this
    subst this
    simp at hl

theorem hex_inj {a b : List UInt8} (h : hexSpaced a = hexSpaced b) : a = b :=
  tokens_unique _ _ le_rfl a b (hexSpaced_tokens a) (h ▸ hexSpaced_tokens b)

/-- The bytes of the records. -/
theorem shown_raw {cfg : Cfg} {d d' : List UInt8} {rs rs' : List DataRecord}
    (h : ∀ r ∈ rs, .ok r ∈ parseDataRecords cfg false d) (h' : ∀ r ∈ rs', .ok r ∈ parseDataRecords cfg false d')
    (he : recordOutputs rs = recordOutputs rs') : rs.map (·.rawBytes) = rs'.map (·.rawBytes) := by
  have key : ∀ (rs rs' : List DataRecord) (n : Nat), (∀ r ∈ rs, .ok r ∈ parseDataRecords cfg false d) →
      (∀ r ∈ rs', .ok r ∈ parseDataRecords cfg false d') →
      (rs.zipIdx n).map (fun (r, i) => recordOutput i r) = (rs'.zipIdx n).map (fun (r, i) => recordOutput i r) →
      rs.map (·.rawBytes) = rs'.map (·.rawBytes) := by
    intro rs
    induction rs with
    | nil =>
      intro rs' n _ _ he
      cases rs' with
      | nil => rfl
      | cons r' rs' => simp [List.zipIdx_cons] at he
    | cons r rs ih =>
      intro rs' n h h' he
      cases rs' with
      | nil => simp [List.zipIdx_cons] at he
      | cons r' rs' =>
        simp only [List.zipIdx_cons, List.map_cons, List.cons.injEq] at he
        rw [List.map_cons, List.map_cons, ih rs' (n + 1) (fun x hx => h x (by simp [hx])) (fun x hx => h' x (by simp [hx])) he.2]
        obtain ⟨x, -, hx⟩ := parsed_from cfg false d r (h r (by simp))
        obtain ⟨y, -, hy⟩ := parsed_from cfg false d' r' (h' r' (by simp))
        have h1 : hexSpaced r.headerBytes = hexSpaced r'.headerBytes := congrArg RecordOutput.headerHex he.1
        have h2 : hexSpaced r.dataBytes = hexSpaced r'.dataBytes := congrArg RecordOutput.dataHex he.1
        rw [← (C29_raw_bytes _ _ _ _ hx).2.1, ← (C29_raw_bytes _ _ _ _ hy).2.1, hex_inj h1, hex_inj h2]
  exact key rs rs' 0 h h' he

theorem filler_skipped : isSkipped 0x2F := by decide

/-- The items of data put together. -/
theorem items_joined {cfg : Cfg} {d e : List UInt8} {items more : List (Res RecordError DataRecord)} {rs rs' : List DataRecord}
    (h : Items (DataRecord.parse cfg false) d items) (hi : items = rs.map .ok)
    (h' : Items (DataRecord.parse cfg false) (d ++ [0x2F]) (rs'.map .ok))
    (hr : rs.map (·.rawBytes) = rs'.map (·.rawBytes)) (hm : Items (DataRecord.parse cfg false) e more) :
    Items (DataRecord.parse cfg false) (d ++ e) (items ++ more) := by
  induction h generalizing rs rs' with
  | nil => simpa using hm
  | skip b data items hs _ ih =>
    refine .skip _ _ _ hs (ih hi ?_ hr)
    generalize hj : rs'.map Res.ok = j at h'
    cases h' with
    | skip _ _ _ _ h => exact h
    | record _ _ _ _ _ hn => exact absurd hs hn
    | fail _ _ hn => exact absurd hs hn
  | record b data rest r items hn hp hd hne _ ih =>
    cases rs with
    | nil => cases hi
    | cons r0 rs =>
      simp only [List.map_cons, List.cons.injEq, Res.ok.injEq] at hi
      obtain ⟨rfl, hi⟩ := hi
      cases rs' with
      | nil => cases hr
      | cons r' rs' =>
        simp only [List.map_cons, List.cons.injEq] at hr
        obtain ⟨hraw, hr⟩ := hr
        generalize hj : (r' :: rs').map Res.ok = j at h'
        have hsame : DataRecord.parse cfg false (b :: data ++ [0x2F]) = .ok r' ∧
            Items (DataRecord.parse cfg false) (rest ++ [0x2F]) (rs'.map .ok) := by
          cases h' with
          | skip _ _ _ hs => exact absurd hs hn
          | record _ _ rest' r'' items' hn' hp' hd' hne' h'' =>
            simp only [List.map_cons, List.cons.injEq, Res.ok.injEq] at hj
            obtain ⟨rfl, rfl⟩ := hj
            refine ⟨hp', ?_⟩
            have : rest ++ [0x2F] = rest' := by
              have h3 : r.rawBytes ++ (rest ++ [0x2F]) = r'.rawBytes ++ rest' := by
                rw [← hd', ← List.append_assoc, ← hd]; rfl
              rw [hraw] at h3
              exact List.append_cancel_left h3
            rw [this]
            exact h''
          | fail _ _ _ hf =>
            simp only [List.map_cons, List.cons.injEq] at hj
            exact absurd hj.1.symm (hf r')
        obtain ⟨hp', h''⟩ := hsame
        have hd2 : b :: data ++ [0x2F] = r'.rawBytes ++ (rest ++ [0x2F]) := by
          rw [hd, hraw, List.append_assoc]
        rw [hd2] at hp'
        have hall := record_followed (by simp) hp'
        have hrr : r' = r := by
          have := hall rest
          rw [← hraw, ← hd, hp] at this
          cases this; rfl
        subst hrr
        have hrest := hall (rest ++ e)
        refine .record b (data ++ e) (rest ++ e) r' (items ++ more) hn ?_ ?_ hne (ih hi h'' hr)
        · rw [← List.append_assoc, ← hd] at hrest; exact hrest
        · rw [← List.append_assoc, ← hd]; rfl
  | fail b data hn hf =>
    cases rs with
    | nil => cases hi
    | cons r0 rs =>
      simp only [List.map_cons, List.cons.injEq] at hi
      exact absurd hi.1 (hf r0)

theorem outputs_append (rs rs' : List DataRecord) :
    recordOutputs (rs ++ rs') = recordOutputs rs ++ numberedFrom (recordOutputs rs).length (recordOutputs rs') := by
  unfold recordOutputs numberedFrom
  rw [List.zipIdx_append, List.map_append, List.length_map, List.length_zipIdx]
  congr 1
  rw [List.map_map]
  have key : ∀ (l : List DataRecord) (k : Nat), (l.zipIdx (rs.length + k)).map (fun (r, i) => recordOutput i r) =
      (l.zipIdx k).map ((fun r : RecordOutput => { r with index := rs.length + r.index }) ∘ fun (r, i) => recordOutput i r) := by
    intro l
    induction l with
    | nil => intro k; rfl
    | cons r l ih =>
      intro k
      rw [List.zipIdx_cons, List.zipIdx_cons, List.map_cons, List.map_cons, Nat.add_assoc, ih]
      rfl
  simpa using key rs' 0

/-- What decoding records yields, by their items. -/
theorem decode_items {cfg : Cfg} {d : List UInt8} (hd : d ≠ []) (rs : List DataRecord) :
    (parseDataRecords cfg false d = rs.map .ok → decodeDataRecords cfg d = .ok (recordOutputs rs)) ∧
    (∀ e, parseDataRecords cfg false d = rs.map .ok ++ [.err e] → ∃ k, decodeDataRecords cfg d = .err (.invalid k e)) ∧
    (parseDataRecords cfg false d = rs.map .ok ++ [.panic] → decodeDataRecords cfg d = .panic) := by
  unfold decodeDataRecords
  rw [if_neg hd]
  refine ⟨fun h => ?_, fun e h => ?_, fun h => ?_⟩
  · rw [C54_no_error cfg (DataRecords.new d false) rs h]
  · rw [C54_reported cfg (DataRecords.new d false) rs e h]
    exact ⟨_, rfl⟩
  · have hn : collectRecords cfg (some (DataRecords.new d false)) = none := by
      have := collectItems_panic rs [] 0
      rw [← h] at this
      exact this
    rw [hn]

/-- What data that end well consist of. -/
theorem ends_well {cfg : Cfg} {d : List UInt8} (h : EndsWell cfg d) : d ≠ [] ∧ ∃ rs, parseDataRecords cfg false d = rs.map .ok ∧
    decodeDataRecords cfg d = .ok (recordOutputs rs) ∧
    ∀ e, parseDataRecords cfg false (d ++ e) = rs.map .ok ++ parseDataRecords cfg false e := by
  obtain ⟨⟨records, hr⟩, hs⟩ := h
  have hd : d ≠ [] := by rintro rfl; cases hr
  have hd' : d ++ [0x2F] ≠ [] := by simp
  obtain ⟨rs, hi | ⟨x, hi⟩ | hi⟩ := items_shape cfg d
  · obtain ⟨rs', hi' | ⟨x, hi'⟩ | hi'⟩ := items_shape cfg (d ++ [0x2F])
    · have h1 := (decode_items hd rs).1 hi
      have h2 := (decode_items hd' rs').1 hi'
      rw [hs, h1] at h2
      have he : recordOutputs rs = recordOutputs rs' := Res.ok.inj h2
      have hraw := shown_raw (cfg := cfg) (d := d) (d' := d ++ [0x2F]) (fun r hr => by rw [hi]; simpa using hr)
        (fun r hr => by rw [hi']; simpa using hr) he
      refine ⟨hd, rs, hi, h1, fun e => ?_⟩
      rw [C27_items]
      exact items_joined ((C27_items cfg false d _).1 hi) rfl ((C27_items cfg false _ _).1 hi') hraw
        ((C27_items cfg false e _).1 rfl)
    · obtain ⟨k, h2⟩ := (decode_items hd' rs').2.1 x hi'
      rw [hs, hr] at h2; cases h2
    · have h2 := (decode_items hd' rs').2.2 hi'
      rw [hs, hr] at h2; cases h2
  · obtain ⟨k, h2⟩ := (decode_items hd rs).2.1 x hi
    rw [hr] at h2; cases h2
  · have h2 := (decode_items hd rs).2.2 hi
    rw [hr] at h2; cases h2

/-- C157: if data end well, the records of them and of what follows are those of both parts, the latter numbered on; if what
follows cannot be read, the whole cannot, for the same reason. -/
theorem C157_joined (cfg : Cfg) (d e : List UInt8) (records : List RecordOutput) (h : EndsWell cfg d) (he : e ≠ [])
    (hd : decodeDataRecords cfg d = .ok records) :
    (∀ more, decodeDataRecords cfg e = .ok more →
      decodeDataRecords cfg (d ++ e) = .ok (records ++ numberedFrom records.length more)) ∧
    (∀ k x, decodeDataRecords cfg e = .err (.invalid k x) → ∃ k', decodeDataRecords cfg (d ++ e) = .err (.invalid k' x)) ∧
    (decodeDataRecords cfg e = .panic → decodeDataRecords cfg (d ++ e) = .panic) := by
  obtain ⟨hne, rs, hi, hr, hall⟩ := ends_well h
  rw [hd] at hr
  cases hr
  have hj := hall e
  have hne' : d ++ e ≠ [] := by simp [hne]
  obtain ⟨rs', hi' | ⟨x, hi'⟩ | hi'⟩ := items_shape cfg e
  · have h2 := (decode_items he rs').1 hi'
    rw [hi', ← List.map_append] at hj
    have h3 := (decode_items hne' (rs ++ rs')).1 hj
    rw [h2, h3, outputs_append]
    refine ⟨fun more hm => by cases hm; rfl, fun k x hx => (by cases hx), fun hp => (by cases hp)⟩
  · obtain ⟨k, h2⟩ := (decode_items he rs').2.1 x hi'
    rw [hi', ← List.append_assoc, ← List.map_append] at hj
    obtain ⟨k', h3⟩ := (decode_items hne' (rs ++ rs')).2.1 x hj
    rw [h2, h3]
    refine ⟨fun more hm => (by cases hm), fun k x hx => (by cases hx; exact ⟨_, rfl⟩), fun hp => (by cases hp)⟩
  · have h2 := (decode_items he rs').2.2 hi'
    rw [hi', ← List.append_assoc, ← List.map_append] at hj
    have h3 := (decode_items hne' (rs ++ rs')).2.2 hj
    rw [h2, h3]
    refine ⟨fun more hm => (by cases hm), fun k x hx => (by cases hx), fun _ => rfl⟩

theorem items_filled {cfg : Cfg} {fill e : List UInt8} (hf : ∀ b ∈ fill, isSkipped b) :
    parseDataRecords cfg false (fill ++ e) = parseDataRecords cfg false e := by
  induction fill with
  | nil => rfl
  | cons b fill ih =>
    rw [C27_items]
    exact .skip _ _ _ (hf b (by simp)) ((C27_items cfg false _ _).1 (ih fun x hx => hf x (by simp [hx])))

/-- C157: fillers between records make no difference. -/
theorem C157_fillers (cfg : Cfg) (d fill e : List UInt8) (h : EndsWell cfg d) (hf : ∀ b ∈ fill, isSkipped b) :
    SameRecords (decodeDataRecords cfg (d ++ (fill ++ e))) (decodeDataRecords cfg (d ++ e)) := by
  obtain ⟨hne, rs, hi, hr, hall⟩ := ends_well h
  have hj := hall (fill ++ e)
  rw [items_filled hf, ← hall e] at hj
  have hne' : d ++ (fill ++ e) ≠ [] := by simp [hne]
  have hne'' : d ++ e ≠ [] := by simp [hne]
  obtain ⟨rs', hi' | ⟨x, hi'⟩ | hi'⟩ := items_shape cfg (d ++ e)
  · rw [(decode_items hne'' rs').1 hi', (decode_items hne' rs').1 (hj.trans hi')]
    exact .shown _
  · obtain ⟨k, h2⟩ := (decode_items hne'' rs').2.1 x hi'
    obtain ⟨k', h3⟩ := (decode_items hne' rs').2.1 x (hj.trans hi')
    rw [h2, h3]
    exact .refused _ _ _
  · rw [(decode_items hne'' rs').2.2 hi', (decode_items hne' rs').2.2 (hj.trans hi')]
    exact .crashed

theorem clear_records {cfg : Cfg} {aes : AesBlock} {data : List UInt8} {link : Option ManufacturerId}
    {payload d : List UInt8} {options : DecodeOptions} (ht : Telegram data link payload) (hd : ClearData payload d)
    {o : DecodedOutput} (h : decodeBytes cfg aes data options = .ok o) :
    ∃ rs, o.records = recordOutputs rs ∧ (parseDataRecords cfg false d = rs.map .ok ∨
      ∃ x, parseDataRecords cfg false d = rs.map .ok ++ [.err x]) := by
  obtain ⟨h1, h2, h3⟩ := clear_decode cfg aes data link payload d options ht hd
  obtain ⟨rs, hi | ⟨x, hi⟩ | hi⟩ := items_shape cfg d
  · obtain ⟨o', ho, hr, -⟩ := h1 rs hi
    rw [h] at ho; cases ho
    exact ⟨rs, hr, .inl hi⟩
  · obtain ⟨o', ho, hr, -⟩ := h2 rs x hi
    rw [h] at ho; cases ho
    exact ⟨rs, hr, .inr ⟨x, hi⟩⟩
  · rw [h3 rs hi] at h; cases h

theorem items_inj {rs rs' : List DataRecord} {t t' : List (Res RecordError DataRecord)}
    (ht : t = [] ∨ ∃ x, t = [.err x]) (ht' : t' = [] ∨ ∃ x, t' = [.err x]) (h : rs.map .ok ++ t = rs'.map .ok ++ t') :
    rs = rs' := by
  induction rs generalizing rs' with
  | nil =>
    cases rs' with
    | nil => rfl
    | cons r rs' => rcases ht with rfl | ⟨x, rfl⟩ <;> simp at h
  | cons r rs ih =>
    cases rs' with
    | nil => rcases ht' with rfl | ⟨x, rfl⟩ <;> simp at h
    | cons r' rs' =>
      simp only [List.map_cons, List.cons_append, List.cons.injEq, Res.ok.injEq] at h
      rw [h.1, ih h.2]

/-- C157: of a telegram whose data are those of two others, the first of which end well, the records of both are shown, the
latter numbered on; damage in the second part changes nothing of the first, and hides no more than it does there. -/
theorem C157_telegrams (cfg : Cfg) (aes : AesBlock) (first second both : List UInt8) (l1 l2 l3 : Option ManufacturerId)
    (p1 p2 p3 d e : List UInt8) (options : DecodeOptions) (o1 o2 o3 : DecodedOutput) (h : EndsWell cfg d)
    (h1 : Telegram first l1 p1) (h2 : Telegram second l2 p2) (h3 : Telegram both l3 p3)
    (c1 : ClearData p1 d) (c2 : ClearData p2 e) (c3 : ClearData p3 (d ++ e))
    (ho1 : decodeBytes cfg aes first options = .ok o1) (ho2 : decodeBytes cfg aes second options = .ok o2)
    (ho3 : decodeBytes cfg aes both options = .ok o3) :
    o3.records = o1.records ++ numberedFrom o1.records.length o2.records := by
  obtain ⟨hne, rs, hi, hr, hall⟩ := ends_well h
  obtain ⟨r1, e1, f1⟩ := clear_records h1 c1 ho1
  obtain ⟨r2, e2, f2⟩ := clear_records h2 c2 ho2
  obtain ⟨r3, e3, f3⟩ := clear_records h3 c3 ho3
  have hr1 : r1 = rs := by
    rcases f1 with f1 | ⟨x, f1⟩
    · exact items_inj (.inl rfl) (.inl rfl) (by simpa using f1.symm.trans hi)
    · exact items_inj (.inr ⟨x, rfl⟩) (.inl rfl) (by simpa using f1.symm.trans hi)
  subst hr1
  have hr3 : r3 = r1 ++ r2 := by
    have hj := hall e
    rcases f2 with f2 | ⟨x, f2⟩ <;> rw [f2] at hj <;> rcases f3 with f3 | ⟨y, f3⟩ <;> rw [f3] at hj
    · exact items_inj (.inl rfl) (.inl rfl) (by simpa using hj)
    · exact items_inj (.inr ⟨y, rfl⟩) (.inl rfl) (by simpa using hj)
    · exact items_inj (.inl rfl) (.inr ⟨x, rfl⟩) (by simpa using hj)
    · exact items_inj (.inr ⟨y, rfl⟩) (.inr ⟨x, rfl⟩) (by simpa using hj)
  rw [e1, e2, e3, hr3, outputs_append]

/-- C157: data that do not end well: what follows changes them, and takes readings away. -/
theorem C157_cut_off (cfg : Cfg) : ∃ d e r s, decodeDataRecords cfg d = .ok [r] ∧ decodeDataRecords cfg e = .ok [s] ∧
    ∃ x, decodeDataRecords cfg (d ++ e) = .err x := by
  have h1 : ((decodeDataRecords cfg [0x00, 0x93]).toOption.map List.length) = some 1 ∧
      ((decodeDataRecords cfg [0x01, 0x13, 0x05]).toOption.map List.length) = some 1 ∧
      (match decodeDataRecords cfg ([0x00, 0x93] ++ [0x01, 0x13, 0x05]) with | .err _ => true | _ => false) = true := by
    obtain ⟨a, b⟩ := cfg
    cases a <;> cases b <;> decide +kernel
  obtain ⟨h1, h2, h3⟩ := h1
  have one : ∀ {x : Res RecordsError (List RecordOutput)}, (x.toOption.map List.length) = some 1 → ∃ r, x = .ok [r] := by
    intro x hx
    cases x with
    | ok l => obtain ⟨r, rfl⟩ := List.length_eq_one_iff.1 (by simpa [Res.toOption] using hx); exact ⟨r, rfl⟩
    | err e => simp [Res.toOption] at hx
    | panic => simp [Res.toOption] at hx
  obtain ⟨r, hr⟩ := one h1
  obtain ⟨s, hs⟩ := one h2
  refine ⟨_, _, r, s, hr, hs, ?_⟩
  split at h3
  · exact ⟨_, by assumption⟩
  · cases h3

/-- Data that end well: a volume and a temperature. -/
example (cfg : Cfg) : EndsWell cfg [0x04, 0x13, 0x21, 0x05, 0x00, 0x00, 0x02, 0x5A, 0xD2, 0x00] := by
  have h : ((decodeDataRecords cfg [0x04, 0x13, 0x21, 0x05, 0x00, 0x00, 0x02, 0x5A, 0xD2, 0x00]).toOption.map List.length) = some 2 ∧
      decodeDataRecords cfg ([0x04, 0x13, 0x21, 0x05, 0x00, 0x00, 0x02, 0x5A, 0xD2, 0x00] ++ [0x2F]) =
        decodeDataRecords cfg [0x04, 0x13, 0x21, 0x05, 0x00, 0x00, 0x02, 0x5A, 0xD2, 0x00] := by
    obtain ⟨a, b⟩ := cfg
    cases a <;> cases b <;> exact ⟨by decide +kernel, by with_unfolding_all rfl⟩
  refine ⟨?_, h.2⟩
  have h1 := h.1
  cases hx : decodeDataRecords cfg [0x04, 0x13, 0x21, 0x05, 0x00, 0x00, 0x02, 0x5A, 0xD2, 0x00] with
  | ok l => exact ⟨l, rfl⟩
  | err e => rw [hx] at h1; simp [Res.toOption] at h1
  | panic => rw [hx] at h1; simp [Res.toOption] at h1

end MBus
