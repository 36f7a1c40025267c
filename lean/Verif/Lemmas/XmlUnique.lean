import Verif.Spec.Xml
import Verif.Lemmas.Decimal
/-!
# An XML text has one reading
-/
namespace MBus.Spec.Xml

theorem run_split {p : Char → Prop} : ∀ (a a' : List Char) (c c' : Char) (b b' : List Char), (∀ x ∈ a, p x) →
    (∀ x ∈ a', p x) → ¬ p c → ¬ p c' → a ++ c :: b = a' ++ c' :: b' → a = a' ∧ c = c' ∧ b = b'
  | [], [], _, _, _, _, _, _, _, _, h => by simpa using h
  | [], x :: a', c, _, _, _, _, h2, h3, _, h => by
    simp only [List.nil_append, List.cons_append, List.cons.injEq] at h
    exact absurd (h.1 ▸ h2 x (by simp)) h3
  | x :: a, [], _, c', _, _, h1, _, _, h4, h => by
    simp only [List.nil_append, List.cons_append, List.cons.injEq] at h
    exact absurd (h.1 ▸ h1 x (by simp)) h4
  | x :: a, y :: a', c, c', b, b', h1, h2, h3, h4, h => by
    simp only [List.cons_append, List.cons.injEq] at h
    have := run_split a a' c c' b b' (fun z hz => h1 z (by simp [hz])) (fun z hz => h2 z (by simp [hz])) h3 h4 h.2
    exact ⟨by rw [h.1, this.1], this.2⟩

theorem attributes_unique {t : List Char} {l : List (List Char × List Char)} (h : Attributes t l) :
    ∀ (t' : List Char) (l' : List (List Char × List Char)) (s s' : List Char), Attributes t' l' →
      t ++ '>' :: s = t' ++ '>' :: s' → t = t' ∧ l = l' ∧ s = s' := by
  induction h with
  | nil =>
    intro t' l' s s' h' he
    cases h' with
    | nil => simpa using he
    | cons name value text rest => simp at he
  | cons name value text rest hn hv _ ih =>
    intro t' l' s s' h' he
    cases h' with
    | nil => simp at he
    | cons name' value' text' rest' hn' hv' ht' =>
      simp only [List.cons_append, List.append_assoc, List.cons.injEq, true_and] at he
      obtain ⟨rfl, -, he⟩ := run_split (p := fun c => c.isAlpha = true) _ _ _ _ _ _ hn.2 hn'.2 (by decide) (by decide) he
      simp only [List.cons.injEq, true_and] at he
      obtain ⟨rfl, -, he⟩ := run_split (p := fun c => c ≠ '"') _ _ _ _ _ _ (fun x hx => (hv x hx).2.1)
        (fun x hx => (hv' x hx).2.1) (by decide) (by decide) he
      obtain ⟨rfl, rfl, rfl⟩ := ih _ _ _ _ ht' he
      exact ⟨rfl, rfl, rfl⟩

/-- What may follow a run of content: nothing or an end tag. -/
def Stop (s : List Char) : Prop := s = [] ∨ ∃ r, s = '<' :: '/' :: r

theorem attributes_head {t : List Char} {l : List (List Char × List Char)} (h : Attributes t l) (s : List Char) :
    ∃ c b, t ++ '>' :: s = c :: b ∧ ¬ c.isAlpha = true := by
  cases h with
  | nil => exact ⟨'>', s, rfl, by decide⟩
  | cons name value text rest => exact ⟨' ', _, rfl, by decide⟩

theorem content_not_stop {t : List Char} {l : List Node} (h : Content t l) (s r : List Char) (hr : Stop r)
    (he : t ++ s = r) : t = [] ∧ l = [] := by
  cases h with
  | nil => exact ⟨rfl, rfl⟩
  | char c text nodes _ h1 h2 h3 =>
    rcases hr with rfl | ⟨r, rfl⟩
    · simp at he
    · simp only [List.cons_append, List.cons.injEq] at he
      exact absurd he.1 h1
  | entity name c text nodes =>
    rcases hr with rfl | ⟨r, rfl⟩ <;> simp at he
  | element name attributes body text attrs children nodes hn =>
    rcases hr with rfl | ⟨r, rfl⟩
    · simp at he
    · obtain ⟨h1, h2⟩ := hn
      cases name with
      | nil => exact absurd rfl h1
      | cons c name =>
        simp only [List.cons_append, List.cons.injEq, true_and] at he
        exact absurd (he.1 ▸ h2 c (by simp)) (by decide)

theorem entity_names {n n' : List Char} {c c' : Char} (h : (n, c) ∈ entities) (h' : (n', c') ∈ entities)
    {s s' : List Char} (he : n ++ ';' :: s = n' ++ ';' :: s') : n = n' ∧ c = c' ∧ s = s' := by
  simp only [entities, List.mem_cons, Prod.mk.injEq, List.not_mem_nil, or_false] at h h'
  rcases h with ⟨rfl, rfl⟩ | ⟨rfl, rfl⟩ | ⟨rfl, rfl⟩ | ⟨rfl, rfl⟩ <;>
    rcases h' with ⟨rfl, rfl⟩ | ⟨rfl, rfl⟩ | ⟨rfl, rfl⟩ | ⟨rfl, rfl⟩ <;> simp_all

theorem content_unique {t : List Char} {l : List Node} (h : Content t l) :
    ∀ (t' : List Char) (l' : List Node) (s s' : List Char), Content t' l' → Stop s → Stop s' →
      t ++ s = t' ++ s' → t = t' ∧ l = l' ∧ s = s' := by
  induction h with
  | nil =>
    intro t' l' s s' h' hs hs' he
    obtain ⟨rfl, rfl⟩ := content_not_stop h' s' s hs he.symm
    exact ⟨rfl, rfl, by simpa using he⟩
  | char c text nodes hx h1 h2 h3 ht ih =>
    intro t' l' s s' h' hs hs' he
    cases h' with
    | nil => exact absurd (content_not_stop (.char c text nodes hx h1 h2 h3 ht) s s' hs' he).1 (by simp)
    | char c' text' nodes' _ _ _ _ ht' =>
      simp only [List.cons_append, List.cons.injEq] at he
      obtain ⟨rfl, rfl, rfl⟩ := ih _ _ _ _ ht' hs hs' he.2
      exact ⟨by rw [he.1], by rw [he.1], rfl⟩
    | entity name c' text' nodes' =>
      simp only [List.cons_append, List.cons.injEq] at he
      exact absurd he.1 h3
    | element name attributes body text' attrs children nodes' =>
      simp only [List.cons_append, List.cons.injEq] at he
      exact absurd he.1 h1
  | entity name c text nodes hn ht ih =>
    intro t' l' s s' h' hs hs' he
    cases h' with
    | nil => exact absurd (content_not_stop (.entity name c text nodes hn ht) s s' hs' he).1 (by simp)
    | char c' text' nodes' _ _ _ h3 =>
      simp only [List.cons_append, List.cons.injEq] at he
      exact absurd he.1.symm h3
    | entity name' c' text' nodes' hn' ht' =>
      simp only [List.cons_append, List.append_assoc, List.cons.injEq, true_and] at he
      obtain ⟨rfl, rfl, he⟩ := entity_names hn hn' he
      obtain ⟨rfl, rfl, rfl⟩ := ih _ _ _ _ ht' hs hs' he
      exact ⟨rfl, rfl, rfl⟩
    | element name' attributes body text' attrs children nodes' => simp at he
  | element name attributes body text attrs children nodes hn ha hb ht ihb iht =>
    intro t' l' s s' h' hs hs' he
    cases h' with
    | nil =>
      exact absurd (content_not_stop (.element name attributes body text attrs children nodes hn ha hb ht) s s' hs' he).1
        (by simp)
    | char c' text' nodes' _ h1 =>
      simp only [List.cons_append, List.cons.injEq] at he
      exact absurd he.1.symm h1
    | entity name' c' text' nodes' => simp at he
    | element name' attributes' body' text' attrs' children' nodes' hn' ha' hb' ht' =>
      simp only [List.cons_append, List.append_assoc, List.cons.injEq, true_and] at he
      obtain ⟨c, b, e1, hc⟩ := attributes_head ha (body ++ '<' :: '/' :: (name ++ '>' :: (text ++ s)))
      obtain ⟨c', b', e2, hc'⟩ := attributes_head ha' (body' ++ '<' :: '/' :: (name' ++ '>' :: (text' ++ s')))
      rw [e1, e2] at he
      obtain ⟨rfl, rfl, rfl⟩ := run_split (p := fun c => c.isAlpha = true) _ _ _ _ _ _ hn.2 hn'.2 hc hc' he
      obtain ⟨rfl, rfl, he⟩ := attributes_unique ha _ _ _ _ ha' (e1.trans e2.symm)
      obtain ⟨rfl, rfl, he⟩ := ihb _ _ _ _ hb' (Or.inr ⟨_, rfl⟩) (Or.inr ⟨_, rfl⟩) he
      simp only [List.cons.injEq, true_and, List.append_cancel_left_eq] at he
      obtain ⟨rfl, rfl, rfl⟩ := iht _ _ _ _ ht' hs hs' he
      exact ⟨rfl, rfl, rfl⟩

theorem document_unique {text name name' : List Char} {children children' : List Node} (h : Document text name children)
    (h' : Document text name' children') : name = name' ∧ children = children' := by
  obtain ⟨body, rfl, hb⟩ := h
  obtain ⟨body', he, hb'⟩ := h'
  have he := List.append_cancel_left he
  subst he
  have := (content_unique hb _ _ [] [] hb' (Or.inl rfl) (Or.inl rfl) rfl).2.1
  simpa using this

theorem decimal_injective {a b : Nat} (h : decimal a = decimal b) : a = b := by
  have := congrArg natOf h
  rwa [natOf_decimal, natOf_decimal] at this

theorem isRecord_unique {x : Node} {r r' : Nat × List Node} (h : IsRecord x r) (h' : IsRecord x r') : r = r' := by
  obtain ⟨c, rfl, e⟩ := h
  obtain ⟨c', h1, e'⟩ := h'
  simp only [Node.element.injEq, true_and, List.cons.injEq, Prod.mk.injEq, and_true] at h1
  obtain ⟨h1, rfl⟩ := h1
  exact Prod.ext (decimal_injective h1) (e.symm.trans e')

theorem isRecords_unique : ∀ {l : List Node} {r r' : List (Nat × List Node)}, List.Forall₂ IsRecord l r →
    List.Forall₂ IsRecord l r' → r = r'
  | [], _, _, .nil, .nil => rfl
  | _ :: _, _, _, .cons h1 h2, .cons h1' h2' => by rw [isRecord_unique h1 h1', isRecords_unique h2 h2']

end MBus.Spec.Xml
