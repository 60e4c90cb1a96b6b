import Verif.Value.Spec
namespace Verif.Value
open Verif.Py Verif.Num Verif.Value.Spec

theorem toUpper_eq_iff (c : Char) (u l : Char)
    (h : (u, l) ∈ [('A','a'),('R','r'),('Y','y'),('E','e'),('C','c'),('O','o'),('D','d')]) :
    c.toUpper = u ↔ c = u ∨ c = l := by
  constructor
  · intro hu
    unfold Char.toUpper at hu
    split at hu
    · right
      rename_i hc
      simp at h
      have key : ∀ x y : Char, x.val = y.val → x = y := fun x y hxy => Char.ext hxy
      have : c.val = u.val + 32 := by
        rw [← hu]
        simp [UInt32.add_assoc]
      rcases h with ⟨rfl, rfl⟩ | ⟨rfl, rfl⟩ | ⟨rfl, rfl⟩ | ⟨rfl, rfl⟩ | ⟨rfl, rfl⟩ | ⟨rfl, rfl⟩ | ⟨rfl, rfl⟩ <;>
        exact key _ _ (by rw [this]; decide)
    · left; exact hu
  · rintro (rfl | rfl) <;> simp at h <;>
    rcases h with ⟨rfl, rfl⟩ | ⟨rfl, rfl⟩ | ⟨rfl, rfl⟩ | ⟨rfl, rfl⟩ | ⟨rfl, rfl⟩ | ⟨rfl, rfl⟩ | ⟨rfl, rfl⟩ <;> decide

theorem marker_iff (m : String) (w : List (Char × Char))
    (hw : ∀ p ∈ w, p ∈ [('A','a'),('R','r'),('Y','y'),('E','e'),('C','c'),('O','o'),('D','d')]) :
    upper m = w.map Prod.fst ↔ Marker m w := by
  unfold upper Marker
  generalize m.toList = cs
  induction cs generalizing w with
  | nil => cases w <;> simp
  | cons c cs ih =>
    cases w with
    | nil => simp
    | cons p w =>
      have ih' := ih w (fun q hq => hw q (by simp [hq]))
      have hc := toUpper_eq_iff c p.1 p.2 (hw p (by simp))
      simp only [List.map_cons, List.cons.injEq, List.length_cons, Nat.add_right_cancel_iff]
      rw [ih', hc]
      constructor
      · rintro ⟨h1, h2, h3⟩
        refine ⟨h2, ?_⟩
        intro i
        cases i with
        | zero => intro c' p' h h'; simp at h h'; subst h; subst h'; exact h1
        | succ i => intro c' p' h h'; exact h3 i c' p' (by simpa using h) (by simpa using h')
      · rintro ⟨h2, h3⟩
        exact ⟨h3 0 c p rfl rfl, h2, fun i c' p' h h' => h3 (i + 1) c' p' (by simpa using h) (by simpa using h')⟩

theorem isArrayMarker_iff (m : String) : isArrayMarker m = true ↔ ArrayMarker m := by
  unfold isArrayMarker ArrayMarker
  rw [← marker_iff m _ (by simp), ← marker_iff m _ (by simp)]
  simp

theorem isRecordMarker_iff (m : String) : isRecordMarker m = true ↔ RecordMarker m := by
  unfold isRecordMarker RecordMarker
  rw [← marker_iff m _ (by simp), ← marker_iff m _ (by simp)]
  simp

theorem markers_disjoint (m : String) (h : ArrayMarker m) : ¬ RecordMarker m := by
  rw [← isArrayMarker_iff] at h
  rw [← isRecordMarker_iff]
  unfold isArrayMarker at h
  unfold isRecordMarker
  simp at h
  rcases h with h | h <;> simp [h]

theorem mkNotAvailable_neg (l : Option String) (p : PyData) (h : NegativeInt p) :
    mkNotAvailable l p = .error .valueError := by
  obtain ⟨i, hi, rfl⟩ := h
  simp [mkNotAvailable, hi]

theorem mkNotAvailable_ok (l : Option String) (p : PyData) (h : ¬ NegativeInt p) :
    mkNotAvailable l p = .ok (.notAvailable l p) := by
  unfold mkNotAvailable
  split
  · rename_i i
    rw [if_neg]
    intro hi
    exact h ⟨i, hi, rfl⟩
  · rfl

/-- What the recursive calls give: the outcome is a description or a fault. -/
def Sound (d : PyData) (r : Except PyErr ValueSpec) : Prop :=
  (∃ v, r = .ok v ∧ Describes d v) ∨ ∃ e, r = .error e ∧ Faulty d e

def SoundArgs (l : Option String) (d p : PyData) (r : Except PyErr ValueSpec) : Prop :=
  (∃ v, r = .ok v ∧ Content l d p v) ∨ ∃ e, r = .error e ∧ FaultyContent d p e

def SoundAll (ds : List PyData) (r : Except PyErr (List ValueSpec)) : Prop :=
  (∃ vs, r = .ok vs ∧ DescribesAll ds vs) ∨
  ∃ e pre d post vs, r = .error e ∧ ds = pre ++ d :: post ∧ DescribesAll pre vs ∧ Faulty d e

mutual
theorem makeFromArgs_sound (l : Option String) (d p : PyData) :
    SoundArgs l d p (makeFromArgs l d p) := by
  match d with
  | .num n => exact Or.inl ⟨_, by rw [makeFromArgs], .number⟩
  | .bool b => exact Or.inl ⟨_, by rw [makeFromArgs], .bool⟩
  | .str s => exact Or.inl ⟨_, by rw [makeFromArgs], .text⟩
  | .none =>
    by_cases h : NegativeInt p
    · exact Or.inr ⟨_, by rw [makeFromArgs]; exact mkNotAvailable_neg l p h, .negativePattern h⟩
    · exact Or.inl ⟨_, by rw [makeFromArgs]; exact mkNotAvailable_ok l p h, .absent h⟩
  | .list [] => exact Or.inr ⟨_, by rw [makeFromArgs], .emptyList⟩
  | .list (.str m :: rest) =>
    rw [makeFromArgs]
    by_cases ha : isArrayMarker m = true
    · rw [if_pos ha]
      have ha' := (isArrayMarker_iff m).1 ha
      rcases makeAll_sound rest with ⟨vs, h1, h2⟩ | ⟨e, pre, x, post, vs, h1, h2, h3, h4⟩
      · exact Or.inl ⟨_, by rw [h1], .array ha' h2⟩
      · exact Or.inr ⟨e, by rw [h1], by rw [h2]; exact .element (Or.inl ha') h3 h4⟩
    · rw [if_neg ha]
      by_cases hr : isRecordMarker m = true
      · rw [if_pos hr]
        have hr' := (isRecordMarker_iff m).1 hr
        rcases makeAll_sound rest with ⟨vs, h1, h2⟩ | ⟨e, pre, x, post, vs, h1, h2, h3, h4⟩
        · exact Or.inl ⟨_, by rw [h1], .record hr' h2⟩
        · exact Or.inr ⟨e, by rw [h1], by rw [h2]; exact .element (Or.inr hr') h3 h4⟩
      · rw [if_neg hr]
        exact Or.inr ⟨_, rfl, .unknownMarker (fun h => ha ((isArrayMarker_iff m).2 h))
          (fun h => hr ((isRecordMarker_iff m).2 h))⟩
  | .list (.none :: rest) => exact Or.inr ⟨_, by rw [makeFromArgs] <;> simp, .markerNotString (by simp)⟩
  | .list (.bool _ :: rest) => exact Or.inr ⟨_, by rw [makeFromArgs] <;> simp, .markerNotString (by simp)⟩
  | .list (.num _ :: rest) => exact Or.inr ⟨_, by rw [makeFromArgs] <;> simp, .markerNotString (by simp)⟩
  | .list (.list _ :: rest) => exact Or.inr ⟨_, by rw [makeFromArgs] <;> simp, .markerNotString (by simp)⟩
  | .list (.tuple _ :: rest) => exact Or.inr ⟨_, by rw [makeFromArgs] <;> simp, .markerNotString (by simp)⟩
  | .list (.other _ :: rest) => exact Or.inr ⟨_, by rw [makeFromArgs] <;> simp, .markerNotString (by simp)⟩
  | .tuple _ => exact Or.inr ⟨_, by rw [makeFromArgs], .kind .tuple⟩
  | .other _ => exact Or.inr ⟨_, by rw [makeFromArgs], .kind .other⟩
termination_by (sizeOf d, 0)

theorem makeValue_sound (d : PyData) : Sound d (makeValue d) := by
  have lift : ∀ d', NotTuple d' → SoundArgs none d' .none (makeFromArgs none d' .none) →
      Sound d' (makeFromArgs none d' .none) := by
    intro d' hn h
    rcases h with ⟨v, h1, h2⟩ | ⟨e, h1, h2⟩
    · exact Or.inl ⟨v, h1, .plain hn h2⟩
    · exact Or.inr ⟨e, h1, .plain hn h2⟩
  match d with
  | .tuple [] => exact Or.inr ⟨_, by rw [makeValue], .emptyTuple⟩
  | .tuple [.str l, v] =>
    rw [makeValue]
    rcases makeFromArgs_sound (some l) v .none with ⟨x, h1, h2⟩ | ⟨e, h1, h2⟩
    · exact Or.inl ⟨x, h1, .labelled h2⟩
    · exact Or.inr ⟨e, h1, .labelled h2⟩
  | .tuple [.str l, v, p] =>
    rw [makeValue]
    rcases makeFromArgs_sound (some l) v p with ⟨x, h1, h2⟩ | ⟨e, h1, h2⟩
    · exact Or.inl ⟨x, h1, .patterned h2⟩
    · exact Or.inr ⟨e, h1, .patterned h2⟩
  | .tuple [.str l] => exact Or.inr ⟨_, by rw [makeValue] <;> simp, .tupleLength (by simp) (by simp)⟩
  | .tuple (.str l :: _ :: _ :: _ :: _) =>
    exact Or.inr ⟨_, by rw [makeValue] <;> simp, .tupleLength (by simp) (by simp)⟩
  | .tuple (.none :: rest) => exact Or.inr ⟨_, by rw [makeValue] <;> simp, .labelNotString (by simp)⟩
  | .tuple (.bool _ :: rest) => exact Or.inr ⟨_, by rw [makeValue] <;> simp, .labelNotString (by simp)⟩
  | .tuple (.num _ :: rest) => exact Or.inr ⟨_, by rw [makeValue] <;> simp, .labelNotString (by simp)⟩
  | .tuple (.list _ :: rest) => exact Or.inr ⟨_, by rw [makeValue] <;> simp, .labelNotString (by simp)⟩
  | .tuple (.tuple _ :: rest) => exact Or.inr ⟨_, by rw [makeValue] <;> simp, .labelNotString (by simp)⟩
  | .tuple (.other _ :: rest) => exact Or.inr ⟨_, by rw [makeValue] <;> simp, .labelNotString (by simp)⟩
  | .none => rw [makeValue] <;> first | exact lift _ trivial (makeFromArgs_sound _ _ _) | simp
  | .bool b => rw [makeValue] <;> first | exact lift _ trivial (makeFromArgs_sound _ _ _) | simp
  | .num n => rw [makeValue] <;> first | exact lift _ trivial (makeFromArgs_sound _ _ _) | simp
  | .str s => rw [makeValue] <;> first | exact lift _ trivial (makeFromArgs_sound _ _ _) | simp
  | .list xs => rw [makeValue] <;> first | exact lift _ trivial (makeFromArgs_sound _ _ _) | simp
  | .other c => rw [makeValue] <;> first | exact lift _ trivial (makeFromArgs_sound _ _ _) | simp
termination_by (sizeOf d, 1)

theorem makeAll_sound (ds : List PyData) : SoundAll ds (makeAll ds) := by
  match ds with
  | [] => exact Or.inl ⟨[], by rw [makeAll], .nil⟩
  | d :: rest =>
    rw [makeAll]
    rcases makeValue_sound d with ⟨v, h1, h2⟩ | ⟨e, h1, h2⟩
    · rw [h1]
      rcases makeAll_sound rest with ⟨vs, h3, h4⟩ | ⟨e, pre, x, post, vs, h3, h4, h5, h6⟩
      · exact Or.inl ⟨_, by rw [h3], .cons h2 h4⟩
      · exact Or.inr ⟨e, d :: pre, x, post, v :: vs, by rw [h3], by rw [h4]; rfl, .cons h2 h5, h6⟩
    · exact Or.inr ⟨e, [], d, rest, [], by rw [h1], rfl, .nil, h2⟩
termination_by (sizeOf ds, 0)
end

theorem makeValue_notTuple (d : PyData) (h : NotTuple d) :
    makeValue d = makeFromArgs none d .none := by
  cases d <;> first | (exfalso; exact h) | (rw [makeValue] <;> simp)

mutual
theorem describes_make {d v} : Describes d v → makeValue d = .ok v
  | .plain hn hc => by rw [makeValue_notTuple _ hn]; exact content_make hc
  | .labelled hc => by rw [makeValue]; exact content_make hc
  | .patterned hc => by rw [makeValue]; exact content_make hc

theorem content_make {l d p v} : Content l d p v → makeFromArgs l d p = .ok v
  | .number => by rw [makeFromArgs]
  | .bool => by rw [makeFromArgs]
  | .text => by rw [makeFromArgs]
  | .absent h => by rw [makeFromArgs]; exact mkNotAvailable_ok _ _ h
  | .array ha h => by
    rw [makeFromArgs, if_pos ((isArrayMarker_iff _).2 ha), all_make h]
  | .record hr h => by
    rw [makeFromArgs, if_neg (fun ha => markers_disjoint _ ((isArrayMarker_iff _).1 ha) hr),
      if_pos ((isRecordMarker_iff _).2 hr), all_make h]

theorem all_make {ds vs} : DescribesAll ds vs → makeAll ds = .ok vs
  | .nil => by rw [makeAll]
  | .cons h t => by rw [makeAll, describes_make h, all_make t]
end

theorem makeAll_append_error {pre d post vs e} (h1 : makeAll pre = .ok vs)
    (h2 : makeValue d = .error e) : makeAll (pre ++ d :: post) = .error e := by
  induction pre generalizing vs with
  | nil => simp only [List.nil_append]; rw [makeAll, h2]
  | cons x xs ih =>
    simp only [List.cons_append]
    rw [makeAll] at h1 ⊢
    cases hx : makeValue x with
    | error e' => rw [hx] at h1; simp at h1
    | ok v =>
      rw [hx] at h1
      simp only at h1 ⊢
      cases hxs : makeAll xs with
      | error e' => rw [hxs] at h1; simp at h1
      | ok vs' => rw [ih hxs]

mutual
theorem faulty_make {d e} : Faulty d e → makeValue d = .error e
  | .emptyTuple => by rw [makeValue]
  | @Faulty.labelNotString x xs h => by
    cases x <;> first | exact absurd rfl (h _) | (rw [makeValue] <;> simp)
  | @Faulty.tupleLength s xs h1 h2 => by
    match xs, h1, h2 with
    | [], _, _ => rw [makeValue] <;> simp
    | [_], h1, _ => exact absurd rfl h1
    | [_, _], _, h2 => exact absurd rfl h2
    | _ :: _ :: _ :: _, _, _ => rw [makeValue] <;> simp
  | .plain hn hc => by rw [makeValue_notTuple _ hn]; exact faultyContent_make hc
  | .labelled hc => by rw [makeValue]; exact faultyContent_make hc
  | .patterned hc => by rw [makeValue]; exact faultyContent_make hc

theorem faultyContent_make {l d p e} : FaultyContent d p e → makeFromArgs l d p = .error e
  | .negativePattern h => by rw [makeFromArgs]; exact mkNotAvailable_neg _ _ h
  | .kind .tuple => by rw [makeFromArgs]
  | .kind .other => by rw [makeFromArgs]
  | .emptyList => by rw [makeFromArgs]
  | @FaultyContent.markerNotString x xs p h => by
    cases x <;> first | exact absurd rfl (h _) | (rw [makeFromArgs] <;> simp)
  | .unknownMarker ha hr => by
    rw [makeFromArgs, if_neg (fun h => ha ((isArrayMarker_iff _).1 h)),
      if_neg (fun h => hr ((isRecordMarker_iff _).1 h))]
  | .element hm hp hf => by
    rw [makeFromArgs, makeAll_append_error (all_make hp) (faulty_make hf)]
    rcases hm with hm | hm
    · rw [if_pos ((isArrayMarker_iff _).2 hm)]
    · rw [if_neg (fun ha => markers_disjoint _ ((isArrayMarker_iff _).1 ha) hm),
        if_pos ((isRecordMarker_iff _).2 hm)]
end

end Verif.Value
