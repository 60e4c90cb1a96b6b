import Verif.Xml.RoundTrip
/- Text that is read back as written contains nothing that needs escaping. -/
namespace Verif.Xml
open Verif.Py Verif.Xml.Spec

theorem digitVal_lt (b : Nat) (hb : b ≤ 16) : digitVal b '<' = none := by
  unfold digitVal
  have : ¬ (99 < b) := by omega
  simp [this]

theorem charRef_shorter (b : Nat) (hb : b ≤ 16) (acc : Nat) (seen : Bool) (cs : List Char) (c : Char)
    (r : List Char) (h : charRef b acc seen cs = some (c, r)) :
    ∃ p, cs = p ++ r ∧ 1 ≤ p.length ∧ '<' ∉ p := by
  induction cs generalizing acc seen with
  | nil => simp [charRef] at h
  | cons x xs ih =>
    rw [charRef] at h
    split at h
    · rename_i hx
      subst hx
      split at h
      · simp only [Option.some.injEq, Prod.mk.injEq] at h
        exact ⟨[';'], by simp [h.2], by simp, by simp⟩
      · simp at h
    · split at h
      · rename_i d hd
        obtain ⟨p, h1, h2, h3⟩ := ih _ _ h
        refine ⟨x :: p, by simp [h1], by simp, ?_⟩
        simp only [List.mem_cons, not_or]
        refine ⟨?_, h3⟩
        rintro rfl
        rw [digitVal_lt b hb] at hd
        simp at hd
      · simp at h

theorem entity_shorter (cs : List Char) (c : Char) (r : List Char) (h : entity cs = some (c, r)) :
    ∃ p, cs = p ++ r ∧ 1 ≤ p.length ∧ '<' ∉ p := by
  unfold entity at h
  split at h
  · simp only [Option.some.injEq, Prod.mk.injEq] at h
    exact ⟨['l','t',';'], by simp [h.2], by simp, by decide⟩
  · simp only [Option.some.injEq, Prod.mk.injEq] at h
    exact ⟨['g','t',';'], by simp [h.2], by simp, by decide⟩
  · simp only [Option.some.injEq, Prod.mk.injEq] at h
    exact ⟨['a','m','p',';'], by simp [h.2], by simp, by decide⟩
  · simp only [Option.some.injEq, Prod.mk.injEq] at h
    exact ⟨['q','u','o','t',';'], by simp [h.2], by simp, by decide⟩
  · simp only [Option.some.injEq, Prod.mk.injEq] at h
    exact ⟨['a','p','o','s',';'], by simp [h.2], by simp, by decide⟩
  · obtain ⟨p, h1, h2, h3⟩ := charRef_shorter 16 (by decide) _ _ _ _ _ h
    exact ⟨'#' :: 'x' :: p, by simp [h1], by simp, by simp [h3]⟩
  · obtain ⟨p, h1, h2, h3⟩ := charRef_shorter 10 (by decide) _ _ _ _ _ h
    exact ⟨'#' :: p, by simp [h1], by simp, by simp [h3]⟩
  · simp at h

/-- What a text run consumes: up to the next `<`, and it delivers the consumed text unless it
is shorter. -/
theorem textRun_inv (n : Nat) (cs u r : List Char) (h : textRun n cs = some (u, r)) :
    ∃ p, cs = p ++ r ∧ '<' ∉ p ∧ (r = [] ∨ ∃ r', r = '<' :: r') ∧
      (u.length < p.length ∨ (u = p ∧ (∀ c ∈ p, isXmlChar c = true ∧ c ≠ '<' ∧ c ≠ '&') ∧
        ¬ [']', ']', '>'] <:+: p)) := by
  induction n generalizing cs u with
  | zero => simp [textRun] at h
  | succ n ih =>
    unfold textRun at h
    split at h
    · simp only [Option.some.injEq, Prod.mk.injEq] at h
      exact ⟨[], by simp [h.2], by simp, Or.inl h.2.symm, Or.inr ⟨h.1.symm, by simp, by simp⟩⟩
    · simp only [Option.some.injEq, Prod.mk.injEq] at h
      exact ⟨[], by simp [h.2], by simp, Or.inr ⟨_, h.2.symm⟩, Or.inr ⟨h.1.symm, by simp, by simp⟩⟩
    · split at h
      · rename_i c r' he
        obtain ⟨q, hq1, hq2, hq3⟩ := entity_shorter _ _ _ he
        cases ht : textRun n r' with
        | none => rw [ht] at h; simp at h
        | some v =>
          obtain ⟨u', r2⟩ := v
          rw [ht] at h
          simp only [Option.map_some, Option.some.injEq, Prod.mk.injEq] at h
          obtain ⟨h1, rfl⟩ := h
          obtain ⟨p, hp1, hp2, hp3, hp4⟩ := ih r' u' ht
          refine ⟨'&' :: (q ++ p), by simp [hq1, hp1], by simp [hq3, hp2], hp3, Or.inl ?_⟩
          rw [← h1]
          have : u'.length ≤ p.length := by
            rcases hp4 with h | ⟨h, -⟩
            · omega
            · rw [h]; omega
          simp only [List.length_cons, List.length_append]
          omega
      · simp at h
    · simp at h
    · rename_i c r' h1 h2 h3
      split at h
      · rename_i hx
        cases ht : textRun n r' with
        | none => rw [ht] at h; simp at h
        | some v =>
          obtain ⟨u', r2⟩ := v
          rw [ht] at h
          simp only [Option.map_some, Option.some.injEq, Prod.mk.injEq] at h
          obtain ⟨hu, rfl⟩ := h
          obtain ⟨p, hp1, hp2, hp3, hp4⟩ := ih r' u' ht
          have hlt : c ≠ '<' := fun hc => h1 hc
          have hamp : c ≠ '&' := fun hc => h2 hc
          refine ⟨c :: p, by simp [hp1], by simp [hp2, Ne.symm hlt], hp3, ?_⟩
          rcases hp4 with hp4 | ⟨hp4, hp5, hp6⟩
          · left; rw [← hu]; simp; omega
          · right
            refine ⟨by rw [← hu, hp4], ?_, ?_⟩
            · intro x hx'
              simp only [List.mem_cons] at hx'
              rcases hx' with rfl | hx'
              · exact ⟨hx, hlt, hamp⟩
              · exact hp5 x hx'
            · rw [List.infix_cons_iff]
              rintro (hpre | hin)
              · obtain ⟨t, ht'⟩ := hpre
                simp only [List.cons_append, List.nil_append, List.cons.injEq] at ht'
                refine h3 (t ++ r2) ht'.1.symm ?_
                rw [hp1, ← ht'.2]
                simp
              · exact hp6 hin
      · simp at h

theorem normEol_length (s : List Char) : (normEol s).length ≤ s.length := by
  fun_induction normEol s <;> simp_all
  omega

theorem normEol_noCR (s : List Char) : '\r' ∉ normEol s := by
  fun_induction normEol s
  · simp
  · simp_all
  · simp_all
  · rename_i c cs h1 h2 ih
    simp only [List.mem_cons, not_or]
    exact ⟨fun h => h2 h.symm, ih⟩

theorem normEol_append_of (a b : List Char) (ha : '\r' ∉ a) : normEol (a ++ b) = a ++ normEol b := by
  induction a with
  | nil => rfl
  | cons c a ih =>
    have hc : c ≠ '\r' := by rintro rfl; simp at ha
    have hs : '\r' ∉ a := by intro h'; exact ha (by simp [h'])
    simp only [List.cons_append]
    rw [normEol, ih hs]
    · intro r hr _; exact hc hr
    · exact hc

theorem normEol_append (a : List Char) (b : List Char) (c : Char) (hc : c ≠ '\n') (hc' : c ≠ '\r')
    (hb : '\r' ∉ b) : normEol (a ++ c :: b) = normEol a ++ c :: b := by
  fun_induction normEol a
  · exact normEol_id _ (by simp [hb, Ne.symm hc'])
  · rename_i cs ih
    simp [normEol, ih]
  · rename_i cs h1 ih
    simp only [List.cons_append]
    rw [normEol, ih]
    intro r hr
    cases cs with
    | nil => simp only [List.nil_append, List.cons.injEq] at hr; exact hc hr.1
    | cons x xs => simp only [List.cons_append, List.cons.injEq] at hr; exact h1 xs (by rw [hr.1])
  · rename_i x xs h1 h2 ih
    simp only [List.cons_append]
    rw [normEol, ih]
    · intro r hr _; exact h2 hr
    · exact h2

/-- If the text between the tags is read as the very same text, nothing in it needed
escaping. -/
theorem survives_safe (tag : String) (ht : Name tag) (t : String) (h0 : t ≠ "")
    (h : parseElement (contentStr tag [] t) = some (.elem tag [] [.text t])) : SafeText t := by
  have hcs : contentStr tag [] t = startTag tag [] ++ (t.toList ++ '<' :: '/' :: (tag.toList ++ ['>'])) := by
    simp [contentStr, h0, endTag]
  have hnr := noCR_name ht
  obtain ⟨-, hst, -⟩ := noCR_startTag ht SafeAttrs.nil
  have hnorm : normEol (contentStr tag [] t) =
      startTag tag [] ++ (normEol t.toList ++ '<' :: '/' :: (tag.toList ++ ['>'])) := by
    rw [hcs, normEol_append_of _ _ hst, normEol_append _ _ _ (by decide) (by decide) (by simp [hnr])]
  unfold parseElement at h
  simp only at h
  rw [hnorm] at h
  generalize 2 * (startTag tag [] ++ (normEol t.toList ++ '<' :: '/' :: (tag.toList ++ ['>']))).length + 2 = n at h
  generalize hbody : normEol t.toList ++ '<' :: '/' :: (tag.toList ++ ['>']) = body at h
  have hst2 : startTag tag [] ++ body = '<' :: (tag.toList ++ '>' :: body) := by
    simp [startTag, startHead]
  rw [hst2] at h
  have hskip : skipSpace ('<' :: (tag.toList ++ '>' :: body)) = '<' :: (tag.toList ++ '>' :: body) := by
    simp [skipSpace, isSpace]
  rw [hskip] at h
  cases n with
  | zero => simp [element] at h
  | succ n =>
    rw [element] at h
    rw [name_endTag tag ht] at h
    simp only at h
    have hal : attrList (n + 1) ('>' :: body) = some ([], '>' :: body) := by
      have := attrList_append [] SafeAttrs.nil ('>' :: body) (Or.inl ⟨_, rfl⟩) (n + 1) (by simp [attrsStr])
      simpa using this
    rw [hal] at h
    simp only at h
    cases hcont : content n body with
    | none => rw [hcont] at h; simp at h
    | some v =>
      obtain ⟨kids, r⟩ := v
      rw [hcont] at h
      have hkids : kids = [.text t] := by
        split at h
        · rename_i dd rr heq
          split at h
          · simp only [Option.some.injEq] at h
            subst h
            split at heq
            · rename_i ks r3 heq2
              simp only [Option.some.injEq, Prod.mk.injEq] at heq2
              split at heq
              · split at heq
                · split at heq
                  · simp only [Option.some.injEq, Prod.mk.injEq, Dom.elem.injEq] at heq
                    rw [heq2.1]; exact heq.1.2.2
                  · simp at heq
                · simp at heq
              · simp at heq
            · simp at heq
          · simp at h
        · simp at h
      subst hkids
      cases n with
      | zero => simp [content] at hcont
      | succ n =>
        unfold content at hcont
        split at hcont
        · simp at hcont
        · simp at hcont
        · split at hcont
          · simp at hcont
          · rename_i e r1 he
            split at hcont
            · simp at hcont
            · simp only [Option.some.injEq, Prod.mk.injEq, List.cons.injEq] at hcont
              obtain ⟨⟨rfl, -⟩, -⟩ := hcont
              exfalso
              cases n with
              | zero => simp [element] at he
              | succ n =>
                unfold element at he
                repeat' split at he
                all_goals simp at he
        · split at hcont
          · simp at hcont
          · rename_i t' r1 htr
            split at hcont
            · simp at hcont
            · simp only [Option.some.injEq, Prod.mk.injEq, List.cons.injEq, Dom.text.injEq] at hcont
              obtain ⟨⟨htt, -⟩, -⟩ := hcont
              have htt' : t' = t.toList := by rw [← htt]; simp
              subst htt'
              obtain ⟨p, hp1, hp2, hp3, hp4⟩ := textRun_inv _ _ _ _ htr
              -- the run cannot reach beyond the text
              have hple : p.length ≤ (normEol t.toList).length := by
                rcases Nat.lt_or_ge (normEol t.toList).length p.length with hlt | hge
                · exfalso
                  rw [← hbody] at hp1
                  have : (normEol t.toList ++ '<' :: '/' :: (tag.toList ++ ['>']))[(normEol t.toList).length]? = some '<' := by
                    simp
                  rw [hp1, List.getElem?_append_left hlt] at this
                  exact hp2 (List.mem_of_getElem? this)
                · exact hge
              have hnl := normEol_length t.toList
              rcases hp4 with hp4 | ⟨hp4, hp5, hp6⟩
              · omega
              · have hpe : p = normEol t.toList := by
                  rw [← hbody] at hp1
                  have hlen : p.length = (normEol t.toList).length := by
                    have := congrArg List.length hp4
                    omega
                  exact (List.append_inj hp1 hlen.symm).1.symm
                have hcr := normEol_noCR t.toList
                rw [← hpe] at hcr
                rw [← hp4] at hp5 hp6 hcr
                refine ⟨fun c hc => ⟨(hp5 c hc).1, (hp5 c hc).2.1, (hp5 c hc).2.2, ?_⟩, hp6⟩
                rintro rfl
                exact hcr hc

end Verif.Xml
