import Verif.Xml.ParseLemmas
/- The parser reads back what the writer wrote. -/
namespace Verif.Xml
open Verif.Py Verif.Xml.Spec

mutual
/-- The text of an element at depth `d`, without the newline and indentation before it. -/
def render (d : Nat) : Xml → List Char
  | .node tag attrs kids =>
    startTag tag attrs ++ (renderKids (d + 1) kids ++ '\n' :: (indentOf d ++ endTag tag))
  | .leaf tag attrs text => contentStr tag attrs text
  | .mixed tag attrs parts => startTag tag attrs ++ partsStr parts ++ endTag tag
def renderKids (d : Nat) : List Xml → List Char
  | [] => []
  | x :: xs => '\n' :: (indentOf d ++ (render d x ++ renderKids d xs))
end

mutual
theorem block_lines (d : Nat) (x : Xml) :
    block (lines d x) = '\n' :: (indentOf d ++ render d x) := by
  match x with
  | .leaf .. => simp [lines, render]
  | .mixed .. => simp [lines, render]
  | .node tag attrs kids =>
    simp [lines, render, block_append, block_linesAll (d + 1) kids]
theorem block_linesAll (d : Nat) (xs : List Xml) : block (linesAll d xs) = renderKids d xs := by
  match xs with
  | [] => simp [linesAll, renderKids]
  | x :: xs => simp [linesAll, renderKids, block_append, block_lines d x, block_linesAll d xs]
end

theorem joinLines_render (x : Xml) : joinLines (lines 0 x) = render 0 x := by
  obtain ⟨t, ls, h⟩ := lines_head 0 x
  have hb := block_lines 0 x
  rw [h] at hb ⊢
  rw [joinLines_block]
  simpa [indentOf] using hb

/-! ### The parsed form -/

/-- newline and indentation -/
def ws (d : Nat) : String := String.ofList ('\n' :: indentOf d)

def domParts : List Part → List Dom
  | [] => []
  | .text s :: ps => .text s :: domParts ps
  | .elem tag attrs t :: ps =>
    .elem tag attrs (if t = "" then [] else [.text t]) :: domParts ps

mutual
def domOf (d : Nat) : Xml → Dom
  | .node tag attrs kids => .elem tag attrs (domKids (d + 1) kids ++ [.text (ws d)])
  | .leaf tag attrs t => .elem tag attrs (if t = "" then [] else [.text t])
  | .mixed tag attrs ps => .elem tag attrs (domParts (mergeParts ps))
def domKids (d : Nat) : List Xml → List Dom
  | [] => []
  | x :: xs => .text (ws d) :: domOf d x :: domKids d xs
end

theorem isSpace_ws (d : Nat) : Blank (ws d) := by
  intro c hc
  simp [ws, indentOf] at hc
  rcases hc with rfl | ⟨_, rfl⟩ <;> decide

theorem same_leaf (tag : String) (attrs : Attrs) (t : String) :
    Same (.elem tag attrs (if t = "" then [] else [.text t])) (.leaf tag attrs t) := by
  by_cases h : t = ""
  · subst h; exact .empty
  · rw [if_neg h]; exact .leaf h

theorem same_parts (ps : List Part) : SameParts (domParts ps) ps := by
  induction ps with
  | nil => exact .nil
  | cons p ps ih =>
    cases p with
    | text s => exact .text ih
    | elem tag attrs t => exact .elem (same_leaf tag attrs t) ih

mutual
theorem same_domOf (d : Nat) (x : Xml) : Same (domOf d x) x := by
  match x with
  | .leaf tag attrs t => rw [domOf]; exact same_leaf tag attrs t
  | .mixed tag attrs ps => exact .mixed (same_parts _)
  | .node tag attrs kids => exact .node (same_domKids (d + 1) kids d)
theorem same_domKids (d : Nat) (xs : List Xml) (d' : Nat) :
    SameKids (domKids d xs ++ [.text (ws d')]) xs := by
  match xs with
  | [] => exact .blank (isSpace_ws d') .nil
  | x :: xs => exact .blank (isSpace_ws d) (.cons (same_domOf d x) (same_domKids d xs d'))
end

/-! ### Parsing -/

theorem name_endTag (tag : String) (h : Name tag) (rest : List Char) :
    name (tag.toList ++ '>' :: rest) = some (tag, '>' :: rest) :=
  name_append tag h _ (by
    intro c r h
    simp only [List.cons.injEq] at h
    rw [← h.1]; decide)

/-- A start tag followed by content that parses, and the end tag. -/
theorem element_open (tag : String) (attrs : Attrs) (ht : Name tag) (ha : SafeAttrs attrs)
    (body rest : List Char) (kids : List Dom) (n : Nat)
    (hn : (attrsStr attrs).length + 1 ≤ n + 1)
    (hb : content n (body ++ (endTag tag ++ rest)) = some (kids, endTag tag ++ rest)) :
    element (n + 1) (startTag tag attrs ++ (body ++ (endTag tag ++ rest))) =
      some (.elem tag attrs kids, rest) := by
  have e1 : startTag tag attrs ++ (body ++ (endTag tag ++ rest)) =
      '<' :: (tag.toList ++ ((if attrs = [] then [] else ' ' :: attrsStr attrs) ++
        '>' :: (body ++ (endTag tag ++ rest)))) := by
    simp [startTag, startHead]
  rw [e1, element]
  have hname : name (tag.toList ++ ((if attrs = [] then [] else ' ' :: attrsStr attrs) ++
        '>' :: (body ++ (endTag tag ++ rest)))) =
      some (tag, (if attrs = [] then [] else ' ' :: attrsStr attrs) ++
        '>' :: (body ++ (endTag tag ++ rest))) := by
    apply name_append tag ht
    intro c r h
    split at h
    · simp only [List.nil_append, List.cons.injEq] at h; rw [← h.1]; decide
    · simp only [List.cons_append, List.cons.injEq] at h; rw [← h.1]; decide
  rw [hname]
  simp only
  rw [attrList_append attrs ha _ (Or.inl ⟨_, rfl⟩) (n + 1) hn]
  simp only
  rw [hb]
  simp only [endTag, List.cons_append, List.append_assoc, List.nil_append]
  rw [name_endTag tag ht]
  simp [skipSpace, isSpace]

/-- An empty-element tag. -/
theorem element_empty (tag : String) (attrs : Attrs) (ht : Name tag) (ha : SafeAttrs attrs)
    (rest : List Char) (n : Nat) (hn : (attrsStr attrs).length + 1 ≤ n + 1) :
    element (n + 1) (startHead tag attrs ++ ('/' :: '>' :: rest)) =
      some (.elem tag attrs [], rest) := by
  have e1 : startHead tag attrs ++ ('/' :: '>' :: rest) =
      '<' :: (tag.toList ++ ((if attrs = [] then [] else ' ' :: attrsStr attrs) ++
        '/' :: '>' :: rest)) := by
    simp [startHead]
  rw [e1, element]
  have hname : name (tag.toList ++ ((if attrs = [] then [] else ' ' :: attrsStr attrs) ++
        '/' :: '>' :: rest)) =
      some (tag, (if attrs = [] then [] else ' ' :: attrsStr attrs) ++ '/' :: '>' :: rest) := by
    apply name_append tag ht
    intro c r h
    split at h
    · simp only [List.nil_append, List.cons.injEq] at h; rw [← h.1]; decide
    · simp only [List.cons_append, List.cons.injEq] at h; rw [← h.1]; decide
  rw [hname]
  simp only
  rw [attrList_append attrs ha _ (Or.inr ⟨_, rfl⟩) (n + 1) hn]
  rfl

theorem content_text (s : List Char) (hs0 : s ≠ [])
    (hs : ∀ c ∈ s, isXmlChar c = true ∧ c ≠ '<' ∧ c ≠ '&' ∧ c ≠ '\r')
    (hc : ¬ [']', ']', '>'] <:+: s) (rest : List Char) (n : Nat) (hn : s.length ≤ n)
    (ks : List Dom) (r2 : List Char) (h : content n ('<' :: rest) = some (ks, r2)) :
    content (n + 1) (s ++ '<' :: rest) = some (.text (String.ofList s) :: ks, r2) := by
  match s, hs0 with
  | c :: s, _ =>
    have hcl := (hs c (by simp)).2.1
    have ht := textRun_append (c :: s) hs hc rest (n + 1) (by simp at hn ⊢; omega)
    simp only [List.cons_append] at ht ⊢
    rw [content, ht]
    · simp [h]
    · simp
    · intro r h; simp only [List.cons.injEq] at h; exact hcl h.1
    · intro r h; simp only [List.cons.injEq] at h; exact hcl h.1

theorem content_end (tag : String) (rest : List Char) (n : Nat) :
    content (n + 1) (endTag tag ++ rest) = some ([], endTag tag ++ rest) := by
  simp [endTag, content]

/-- The start of an element: `<` and a name character. -/
theorem content_elem (cs r1 : List Char) (tag : String) (body : List Char) (ht : Name tag)
    (hcs : cs = '<' :: (tag.toList ++ body)) (n : Nat) (e : Dom) (ks : List Dom) (r2 : List Char)
    (h1 : element n cs = some (e, r1)) (h2 : content n r1 = some (ks, r2)) :
    content (n + 1) cs = some (e :: ks, r2) := by
  obtain ⟨c, t, hc⟩ : ∃ c t, tag.toList = c :: t := by
    cases h : tag.toList with
    | nil => exact absurd (String.toList_eq_nil_iff.1 h) ht.1
    | cons c cs => exact ⟨c, cs, rfl⟩
  have hcn : c ≠ '/' := nameChar_ne c '/' (ht.2 c (by simp [hc])) (by decide)
  subst hcs
  rw [hc] at h1 ⊢
  simp only [List.cons_append] at h1 ⊢
  rw [content]
  · rw [h1]
    simp only
    rw [h2]
  · intro r h
    simp only [List.cons.injEq] at h
    exact hcn h.1

theorem ws_safe (d : Nat) : (∀ c ∈ '\n' :: indentOf d,
    isXmlChar c = true ∧ c ≠ '<' ∧ c ≠ '&' ∧ c ≠ '\r') ∧ ¬ [']', ']', '>'] <:+: '\n' :: indentOf d := by
  have h : ∀ c ∈ '\n' :: indentOf d, c = '\n' ∨ c = ' ' := by
    intro c hc
    simp [indentOf] at hc
    rcases hc with rfl | ⟨_, rfl⟩
    · exact Or.inl rfl
    · exact Or.inr rfl
  refine ⟨?_, ?_⟩
  · intro c hc
    rcases h c hc with rfl | rfl <;> decide
  · rintro ⟨a, b, hab⟩
    have : ']' ∈ '\n' :: indentOf d := by rw [← hab]; simp
    rcases h _ this with h | h <;> revert h <;> decide

theorem SafeText.chars {t : String} (h : SafeText t) :
    (∀ c ∈ t.toList, isXmlChar c = true ∧ c ≠ '<' ∧ c ≠ '&' ∧ c ≠ '\r') ∧
    ¬ [']', ']', '>'] <:+: t.toList := h

theorem toList_ne_nil {t : String} (h : t ≠ "") : t.toList ≠ [] := by
  intro h'
  exact h (String.toList_eq_nil_iff.1 h')

/-- `_add_content` text. -/
theorem element_content (tag : String) (attrs : Attrs) (t : String) (ht : Name tag)
    (ha : SafeAttrs attrs) (hs : SafeText t) (rest : List Char) (n : Nat)
    (hn : 2 * (contentStr tag attrs t ++ rest).length ≤ n) :
    element n (contentStr tag attrs t ++ rest) =
      some (.elem tag attrs (if t = "" then [] else [.text t]), rest) := by
  by_cases h : t = ""
  · subst h
    simp only [contentStr, if_true] at hn ⊢
    obtain ⟨m, rfl⟩ : ∃ m, n = m + 1 := ⟨n - 1, by simp [startHead] at hn; omega⟩
    have := element_empty tag attrs ht ha rest m (by
      simp [startHead] at hn
      by_cases h0 : attrs = []
      · subst h0; simp [attrsStr]
      · simp [h0] at hn; omega)
    simpa using this
  · rw [if_neg h]
    simp only [contentStr, if_neg h] at hn ⊢
    obtain ⟨m, rfl⟩ : ∃ m, n = m + 3 := ⟨n - 3, by simp [startTag, startHead, endTag] at hn; omega⟩
    have hb := content_text t.toList (toList_ne_nil h) hs.1 hs.2
      ('/' :: (tag.toList ++ '>' :: rest)) (m + 1) (by simp [startTag, startHead, endTag] at hn; omega) []
      (endTag tag ++ rest) (by
        have := content_end tag rest m
        simpa [endTag] using this)
    have := element_open tag attrs ht ha t.toList rest [.text t] (m + 2) (by
      simp [startTag, startHead, endTag] at hn
      by_cases h0 : attrs = []
      · subst h0; simp [attrsStr]
      · simp [h0] at hn; omega) (by
        simp only [String.ofList_toList] at hb
        simpa [endTag] using hb)
    simpa using this

/-! Mixed content -/

/-- No empty texts and no two texts in a row. -/
def Normal : List Part → Prop
  | [] => True
  | .text s :: ps => s ≠ "" ∧ (∀ t qs, ps ≠ .text t :: qs) ∧ Normal ps
  | .elem .. :: ps => Normal ps

theorem mergeParts_normal (ps : List Part) : Normal (mergeParts ps) := by
  induction ps with
  | nil => trivial
  | cons p ps ih =>
    cases p with
    | elem tag attrs t => exact ih
    | text s =>
      rw [mergeParts]
      split
      · exact ih
      · rename_i hs
        split
        · rename_i t qs heq
          rw [heq] at ih
          refine ⟨?_, ih.2.1, ih.2.2⟩
          intro h
          have h2 := congrArg String.toList h
          simp only [String.toList_append] at h2
          rw [String.toList_eq_nil_iff.2 rfl] at h2
          rw [List.append_eq_nil_iff] at h2
          exact hs (String.toList_eq_nil_iff.1 h2.1)
        · rename_i heq
          exact ⟨hs, fun t qs h => heq t qs h, ih⟩

theorem mergeParts_str (ps : List Part) : partsStr (mergeParts ps) = partsStr ps := by
  induction ps with
  | nil => rfl
  | cons p ps ih =>
    cases p with
    | elem tag attrs t => simp [mergeParts, partsStr, ih]
    | text s =>
      rw [mergeParts]
      split
      · rename_i h; subst h; simp [partsStr, ih]
      · split
        · rename_i t qs heq
          rw [heq] at ih
          simp [partsStr] at ih ⊢
          exact ih
        · simp [partsStr, ih]

theorem contentStr_head (tag : String) (attrs : Attrs) (t : String) :
    ∃ body, contentStr tag attrs t = '<' :: (tag.toList ++ body) := by
  unfold contentStr startTag startHead
  split <;> simp

theorem content_parts (ps : List Part) (hN : Normal ps) (hs : ∀ p ∈ ps, SafePart p)
    (tag : String) (rest : List Char) (n : Nat)
    (hn : 2 * (partsStr ps ++ (endTag tag ++ rest)).length + 1 ≤ n) :
    content n (partsStr ps ++ (endTag tag ++ rest)) = some (domParts ps, endTag tag ++ rest) := by
  induction ps generalizing n with
  | nil =>
    obtain ⟨n, rfl⟩ : ∃ m, n = m + 1 := ⟨n - 1, by omega⟩
    simp only [partsStr, List.nil_append, domParts]
    exact content_end tag rest n
  | cons p ps ih =>
    obtain ⟨n, rfl⟩ : ∃ m, n = m + 1 := ⟨n - 1, by omega⟩
    have hs' : ∀ q ∈ ps, SafePart q := fun q hq => hs q (by simp [hq])
    cases p with
    | text s =>
      obtain ⟨h1, h2, h3⟩ := hN
      have hsp := hs (.text s) (by simp)
      simp only [partsStr, List.append_assoc] at hn ⊢
      have hlen : 0 < s.toList.length := List.length_pos_iff.2 (toList_ne_nil h1)
      have hrest : ∃ r, partsStr ps ++ (endTag tag ++ rest) = '<' :: r := by
        cases ps with
        | nil => simp [partsStr, endTag]
        | cons q qs =>
          cases q with
          | text t => exact absurd rfl (h2 t qs)
          | elem tag' attrs t =>
            obtain ⟨b, hb⟩ := contentStr_head tag' attrs t
            simp [partsStr, hb]
      obtain ⟨r, hr⟩ := hrest
      have hi := ih h3 hs' n (by simp only [List.length_append] at hn ⊢; omega)
      rw [hr] at hi ⊢
      have hct := content_text s.toList (toList_ne_nil h1) hsp.1 hsp.2 r n
        (by simp only [List.length_append] at hn; omega) _ _ hi
      simpa [domParts] using hct
    | elem tag' attrs t =>
      obtain ⟨h1, h2, h3⟩ := hs (.elem tag' attrs t) (by simp)
      simp only [partsStr, List.append_assoc] at hn ⊢
      obtain ⟨b, hb⟩ := contentStr_head tag' attrs t
      have hlen : 0 < (contentStr tag' attrs t).length := by rw [hb]; simp
      have hi := ih hN hs' n (by simp only [List.length_append] at hn ⊢; omega)
      have he := element_content tag' attrs t h1 h2 h3 (partsStr ps ++ (endTag tag ++ rest)) n (by omega)
      exact content_elem _ _ tag' (b ++ (partsStr ps ++ (endTag tag ++ rest))) h1
        (by rw [hb]; simp) n _ _ _ he hi

/-! Whole elements -/

theorem render_head (d : Nat) (x : Xml) :
    ∃ tag body, render d x = '<' :: (tag.toList ++ body) ∧ (Safe x → Name tag) := by
  cases x with
  | node tag attrs kids =>
    refine ⟨tag, _, by simp [render, startTag, startHead]; rfl, fun h => ?_⟩
    rw [Safe] at h; exact h.1
  | leaf tag attrs t =>
    obtain ⟨b, hb⟩ := contentStr_head tag attrs t
    refine ⟨tag, b, by rw [render]; exact hb, fun h => ?_⟩
    rw [Safe] at h; exact h.1
  | mixed tag attrs ps =>
    refine ⟨tag, _, by simp [render, startTag, startHead]; rfl, fun h => ?_⟩
    rw [Safe] at h; exact h.1

theorem startTag_len (tag : String) (attrs : Attrs) :
    (attrsStr attrs).length + 1 ≤ (startTag tag attrs).length := by
  unfold startTag startHead
  by_cases h0 : attrs = []
  · subst h0; simp [attrsStr]
  · simp [h0]; omega

mutual
theorem element_render (d : Nat) (x : Xml) (hx : Safe x) (rest : List Char) (n : Nat)
    (hn : 2 * (render d x ++ rest).length ≤ n) :
    element n (render d x ++ rest) = some (domOf d x, rest) := by
  match x with
  | .leaf tag attrs t =>
    rw [Safe] at hx
    rw [render] at hn ⊢
    rw [domOf]
    exact element_content tag attrs t hx.1 hx.2.1 hx.2.2 rest n hn
  | .mixed tag attrs ps =>
    rw [Safe] at hx
    rw [render] at hn ⊢
    have hl := startTag_len tag attrs
    obtain ⟨n, rfl⟩ : ∃ m, n = m + 1 := ⟨n - 1, by simp only [List.length_append] at hn; omega⟩
    have := element_open tag attrs hx.1 hx.2.1 (partsStr ps) rest (domParts (mergeParts ps)) n
      (by simp only [List.length_append] at hn; omega) (by
        rw [← mergeParts_str ps]
        apply content_parts _ (mergeParts_normal ps) hx.2.2
        rw [mergeParts_str ps]
        simp only [List.length_append] at hn ⊢
        omega)
    rw [domOf]
    simpa using this
  | .node tag attrs kids =>
    rw [Safe] at hx
    rw [render] at hn ⊢
    have hl := startTag_len tag attrs
    obtain ⟨n, rfl⟩ : ∃ m, n = m + 1 := ⟨n - 1, by simp only [List.length_append] at hn; omega⟩
    have hk := content_kids (d + 1) kids hx.2.2 d tag rest n (by
      simp only [List.length_append, List.length_cons] at hn ⊢; omega)
    have := element_open tag attrs hx.1 hx.2.1 (renderKids (d + 1) kids ++ '\n' :: indentOf d) rest
      (domKids (d + 1) kids ++ [.text (ws d)]) n
      (by simp only [List.length_append] at hn; omega) (by simpa using hk)
    rw [domOf]
    simpa using this
theorem content_kids (d : Nat) (xs : List Xml) (hx : SafeAll xs) (d' : Nat) (tag : String)
    (rest : List Char) (n : Nat)
    (hn : 2 * (renderKids d xs ++ '\n' :: (indentOf d' ++ (endTag tag ++ rest))).length + 1 ≤ n) :
    content n (renderKids d xs ++ '\n' :: (indentOf d' ++ (endTag tag ++ rest))) =
      some (domKids d xs ++ [.text (ws d')], endTag tag ++ rest) := by
  match xs with
  | [] =>
    obtain ⟨n, rfl⟩ : ∃ m, n = m + 2 := ⟨n - 2, by simp [endTag] at hn; omega⟩
    have := content_text ('\n' :: indentOf d') (by simp) (ws_safe d').1 (ws_safe d').2
      ('/' :: (tag.toList ++ '>' :: rest)) (n + 1)
      (by simp only [renderKids, List.nil_append, List.length_cons, List.length_append] at hn ⊢; omega) []
      (endTag tag ++ rest) (by
        have := content_end tag rest n
        simpa [endTag] using this)
    simpa [renderKids, domKids, endTag, ws] using this
  | x :: xs =>
    rw [SafeAll] at hx
    simp only [renderKids, List.cons_append, List.append_assoc] at hn ⊢
    obtain ⟨n, rfl⟩ : ∃ m, n = m + 2 := ⟨n - 2, by simp at hn; omega⟩
    obtain ⟨tg, b, hb, hnm⟩ := render_head d x
    have hr : 0 < (render d x).length := by rw [hb]; simp
    have hk := content_kids d xs hx.2 d' tag rest n (by
      simp only [List.length_append, List.length_cons] at hn ⊢; omega)
    have he := element_render d x hx.1
      (renderKids d xs ++ '\n' :: (indentOf d' ++ (endTag tag ++ rest))) n (by
        simp only [List.length_append, List.length_cons] at hn ⊢; omega)
    have hce := content_elem _ _ tg
      (b ++ (renderKids d xs ++ '\n' :: (indentOf d' ++ (endTag tag ++ rest)))) (hnm hx.1)
      (by rw [hb]; simp) n _ _ _ he hk
    have hlt : render d x ++ (renderKids d xs ++ '\n' :: (indentOf d' ++ (endTag tag ++ rest))) =
        '<' :: (tg.toList ++ (b ++ (renderKids d xs ++ '\n' :: (indentOf d' ++ (endTag tag ++ rest))))) := by
      rw [hb]; simp
    rw [hlt] at hce
    have := content_text ('\n' :: indentOf d) (by simp) (ws_safe d).1 (ws_safe d).2 _ (n + 1)
      (by simp only [List.length_append, List.length_cons] at hn ⊢; omega) _ _ hce
    rw [← hlt] at this
    simpa [domKids, ws] using this
end

/-! ### End-of-line normalisation does nothing -/

theorem normEol_id (s : List Char) (h : '\r' ∉ s) : normEol s = s := by
  induction s with
  | nil => rfl
  | cons c s ih =>
    have hc : c ≠ '\r' := by rintro rfl; simp at h
    have hs : '\r' ∉ s := by intro h'; exact h (by simp [h'])
    rw [normEol, ih hs]
    · intro r hr _; exact hc hr
    · exact hc

theorem noCR_name {s : String} (h : Name s) : '\r' ∉ s.toList := by
  intro hc
  have := h.2 _ hc
  revert this
  decide

theorem noCR_attr {s : String} (h : SafeAttr s) : '\r' ∉ s.toList :=
  fun hc => (h _ hc).2.2.2.2.2.2 rfl

theorem noCR_text {s : String} (h : SafeText s) : '\r' ∉ s.toList :=
  fun hc => (h.1 _ hc).2.2.2 rfl

theorem noCR_attrs {as : Attrs} (h : SafeAttrs as) : '\r' ∉ attrsStr as := by
  obtain ⟨h, -⟩ := h
  induction as with
  | nil => simp [attrsStr]
  | cons a as ih =>
    have ha := h a (by simp)
    have ih' := ih (fun b hb => h b (by simp [hb]))
    have h1 : '\r' ∉ attrStr a := by
      simp [attrStr, noCR_name ha.1, noCR_attr ha.2]
    cases as with
    | nil => simpa [attrsStr] using h1
    | cons b bs =>
      rw [attrsStr]
      · simp [h1, ih']
      · simp

theorem noCR_startTag {tag : String} {as : Attrs} (h : Name tag) (ha : SafeAttrs as) :
    '\r' ∉ startHead tag as ∧ '\r' ∉ startTag tag as ∧ '\r' ∉ endTag tag := by
  have h1 : '\r' ∉ startHead tag as := by
    unfold startHead
    split <;> simp [noCR_name h, noCR_attrs ha]
  exact ⟨h1, by simp [startTag, h1], by simp [endTag, noCR_name h]⟩

theorem noCR_content {tag : String} {as : Attrs} {t : String} (h : Name tag) (ha : SafeAttrs as)
    (ht : SafeText t) : '\r' ∉ contentStr tag as t := by
  obtain ⟨h1, h2, h3⟩ := noCR_startTag h ha
  unfold contentStr
  split <;> simp [h1, h2, h3, noCR_text ht]

theorem noCR_parts (ps : List Part) (h : ∀ p ∈ ps, SafePart p) : '\r' ∉ partsStr ps := by
  induction ps with
  | nil => simp [partsStr]
  | cons p ps ih =>
    have ih' := ih (fun q hq => h q (by simp [hq]))
    have hp := h p (by simp)
    cases p with
    | text s => simp [partsStr, ih', noCR_text hp]
    | elem tag as t => simp [partsStr, ih', noCR_content hp.1 hp.2.1 hp.2.2]

theorem noCR_indent (d : Nat) : '\r' ∉ indentOf d := by
  simp [indentOf]

mutual
theorem noCR_render (d : Nat) (x : Xml) (h : Safe x) : '\r' ∉ render d x := by
  match x with
  | .leaf tag as t => rw [Safe] at h; rw [render]; exact noCR_content h.1 h.2.1 h.2.2
  | .mixed tag as ps =>
    rw [Safe] at h
    obtain ⟨h1, h2, h3⟩ := noCR_startTag h.1 h.2.1
    have := noCR_parts _ h.2.2
    rw [mergeParts_str] at this
    simp [render, h2, h3, this]
  | .node tag as kids =>
    rw [Safe] at h
    obtain ⟨h1, h2, h3⟩ := noCR_startTag h.1 h.2.1
    simp [render, h2, h3, noCR_kids (d + 1) kids h.2.2, noCR_indent]
theorem noCR_kids (d : Nat) (xs : List Xml) (h : SafeAll xs) : '\r' ∉ renderKids d xs := by
  match xs with
  | [] => simp [renderKids]
  | x :: xs =>
    rw [SafeAll] at h
    simp [renderKids, noCR_render d x h.1, noCR_kids d xs h.2, noCR_indent]
end

theorem parse_render (x : Xml) (h : Safe x) (pre : List Char) (hp : ∀ c ∈ pre, c = '\n') :
    parseElement (pre ++ render 0 x) = some (domOf 0 x) := by
  have hcr : '\r' ∉ pre ++ render 0 x := by
    simp only [List.mem_append, not_or]
    exact ⟨fun hc => by have := hp _ hc; revert this; decide, noCR_render 0 x h⟩
  unfold parseElement
  simp only
  rw [normEol_id _ hcr]
  obtain ⟨tag, b, hb, -⟩ := render_head 0 x
  have hskip : skipSpace (pre ++ render 0 x) = render 0 x := by
    unfold skipSpace
    have := (takeWhile_append_stop (p := isSpace) pre (fun c hc => by rw [hp c hc]; decide)
      (render 0 x) (by
        intro c r hr
        rw [hb] at hr
        simp only [List.cons.injEq] at hr
        rw [← hr.1]; decide)).2
    exact this
  rw [hskip]
  have := element_render 0 x h [] (2 * (pre ++ render 0 x).length + 2) (by simp; omega)
  rw [List.append_nil] at this
  rw [this]
  simp [skipSpace]

end Verif.Xml
