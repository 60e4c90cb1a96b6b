import Verif.Codec.ConnectProof
/-
Lemmas for C67: the connector.
-/
set_option linter.unusedSimpArgs false
namespace Verif.Codec.Connect
open Verif.Py Verif.Ref Verif.Codec Verif.Codec.Spec Verif.Codec.Find Verif.Codec.FindSpec
open Verif.Codec.ConnectSpec Verif.Pkg.Spec
open Verif.Codec.Owner (shortName)
open Verif.Codec.Constant (fields_ok)

theorem last_append (way : List String) (n : String) : last (way ++ [n]) = n := by simp [last]

theorem ref_append (way : List String) (n : String) : absRef (way ++ [n]) = absRef way ++ "/" ++ n := by
  rw [Pkg.absRef_append, Pkg.absRef_cons, Pkg.absRef_nil, String.append_empty, String.append_assoc]

/-- The reference to a port. -/
theorem port_dest {x : Val Cls} {p : Swc.Port} (h : portOf x = some p) : PortDest x (destOf p.kind) := by
  unfold portOf portKind at h
  split at h <;> simp at h <;> subst h
  · exact .provide
  · exact .require
  · exact .both

theorem port_class {x : Val Cls} {p : Swc.Port} (h : portOf x = some p) :
    (p.kind = .p ↔ classOf x = some .ProvidePortPrototype) ∧
    (p.kind = .r ↔ classOf x = some .RequirePortPrototype) := by
  unfold portOf portKind at h
  split at h <;> simp at h <;> subst h <;> simp [classOf]

theorem refers {k : Val Cls} {a : String} {c : Option (List String × Val Cls)} {owner : List String}
    {x : Val Cls} {p : Swc.Port} (hp : IsPort x p)
    (h : field k a = some (.ref ⟨"PortPrototypeRef", absRef owner ++ "/" ++ p.name, destOf p.kind⟩)) :
    RefersTo k a ⟨c, owner ++ [p.name], x⟩ :=
  ⟨destOf p.kind, port_dest hp.port, by rw [ref_append]; exact h⟩

/-- The instance reference. -/
theorem inst_of {way : List String} {v : Val Cls} {e : Swc.Proto} {t : Swc.CompType} {p : Swc.Port}
    {owner : List String} (h : t.ref = some (absRef owner)) (c : Cls) :
    instObj c (Swc.Spec.instOf (compOf way v) e t p) = .obj c
      [("component_ref", .ref ⟨"SwComponentPrototypeRef", absRef way ++ "/" ++ e.name,
          "SW_COMPONENT_PROTOTYPE"⟩),
       ("port_ref", .ref ⟨"PortPrototypeRef", absRef owner ++ "/" ++ p.name, destOf p.kind⟩)] := by
  simp [instObj, Swc.Spec.instOf, compOf, Swc.Spec.refTo, h, refAttr, portRefObj]

theorem inst_port {way : List String} {v : Val Cls} {e : Swc.Proto} {t : Swc.CompType} {p : Swc.Port}
    {owner : List String} (h : t.ref = some (absRef owner)) :
    (Swc.Spec.instOf (compOf way v) e t p).port = some ⟨absRef owner ++ "/" ++ p.name, p.kind⟩ := by
  simp only [Swc.Spec.instOf, h, Swc.Spec.refTo]

theorem inst_ends {k : Val Cls} {a : String} {way owner : List String} {c : Cls} {e : Swc.Proto}
    {x y : Val Cls} {p : Swc.Port} (hp : IsPort y p)
    (h : field k a = some (.obj c
      [("component_ref", .ref ⟨"SwComponentPrototypeRef", absRef way ++ "/" ++ e.name,
          "SW_COMPONENT_PROTOTYPE"⟩),
       ("port_ref", .ref ⟨"PortPrototypeRef", absRef owner ++ "/" ++ p.name, destOf p.kind⟩)])) :
    Instance k a ⟨some (way ++ [e.name], x), owner ++ [p.name], y⟩ :=
  ⟨_, _, _, h, rfl, by rw [ref_append]; rfl, refers hp rfl⟩

/-- The connector joins the ends. -/
theorem connects {ps : List Pkg} {way : List String} {v : Val Cls} {e1 e2 : Swc.Spec.End} {d e : End}
    {k : Swc.Connector} (h1 : Fits ps way v e1 d) (h2 : Fits ps way v e2 e)
    (h : Swc.Spec.Joins (compOf way v) e1 e2 k.name k.joint) :
    Connects (connectorObj k) d e ∨ e.comp ≠ none ∧ Connects (connectorObj k) e d := by
  obtain ⟨name, joint, b⟩ := k
  simp only at h
  cases h with
  | assembly f1 t1 p1 f2 t2 p2 k1 k2 =>
    cases h1 with
    | inner a1 a2 a3 a4 a5 a6 =>
      cases h2 with
      | inner b1 b2 b3 b4 b5 b6 =>
        refine .inl (.assembly rfl ((port_class a6.is.port).1.1 k1) ((port_class b6.is.port).2.1 k2)
          rfl rfl ?_ ?_ ?_)
        · simp [connectorObj, elemName, nameOf, dictGet, last_append]
        · exact inst_ends a6.is (congrArg some (inst_of a5 _))
        · exact inst_ends b6.is (congrArg some (inst_of b5 _))
  | assembly' f1 t1 p1 f2 t2 p2 k1 k2 =>
    cases h1 with
    | inner a1 a2 a3 a4 a5 a6 =>
      cases h2 with
      | inner b1 b2 b3 b4 b5 b6 =>
        refine .inr ⟨by simp, .assembly rfl ((port_class b6.is.port).1.1 k2) ((port_class a6.is.port).2.1 k1)
          rfl rfl ?_ ?_ ?_⟩
        · simp [connectorObj, elemName, nameOf, dictGet, last_append]
        · exact inst_ends b6.is (congrArg some (inst_of b5 _))
        · exact inst_ends a6.is (congrArg some (inst_of a5 _))
  | delegation f t p q =>
    cases h1 with
    | inner a1 a2 a3 a4 a5 a6 =>
      cases h2 with
      | outer b1 b2 =>
        refine .inl (.delegation rfl rfl rfl ?_ ?_ ?_)
        · simp only [connectorObj, elemName, nameOf, dictGet, last_append, List.cons_append, if_true,
            (port_class b1.is.port).1]
        · exact inst_ends a6.is (congrArg some (inst_of a5 _))
        · exact refers b1.is (by
            simp [connectorObj, field, List.lookup, Swc.Spec.refTo, compOf, refAttr, portRefObj])
  | delegation' f t p q =>
    cases h1 with
    | outer b1 b2 =>
      cases h2 with
      | inner a1 a2 a3 a4 a5 a6 =>
        refine .inr ⟨by simp, .delegation rfl rfl rfl ?_ ?_ ?_⟩
        · simp only [connectorObj, elemName, nameOf, dictGet, last_append, List.cons_append, if_true,
            (port_class b1.is.port).1]
        · exact inst_ends a6.is (congrArg some (inst_of a5 _))
        · exact refers b1.is (by
            simp [connectorObj, field, List.lookup, Swc.Spec.refTo, compOf, refAttr, portRefObj])
  | passThrough p q =>
    cases h1 with
    | outer a1 a2 =>
      cases h2 with
      | outer b1 b2 =>
        refine .inl (.passThrough rfl rfl rfl ?_ ?_ ?_)
        · simp [connectorObj, elemName, nameOf, dictGet, last_append]
        · exact refers a1.is (by
            simp [connectorObj, field, List.lookup, Swc.Spec.refTo, compOf, refAttr, portRefObj])
        · exact refers b1.is (by
            simp [connectorObj, field, List.lookup, Swc.Spec.refTo, compOf, refAttr, portRefObj])

/-! ### It is well-formed -/

theorem plain_append (a b : String) : plainText (a ++ b) = (plainText a && plainText b) := by
  simp [plainText]

theorem plain_ref {way : List String} (h : ∀ n ∈ way, plainText n = true) :
    plainText (absRef way) = true := by
  induction way with
  | nil => rfl
  | cons n way ih =>
    rw [Pkg.absRef_cons, plain_append, plain_append, h n (by simp), ih fun m hm => h m (by simp [hm])]
    rfl

theorem head_plain {p : Pkg} {n : String} (h : WellFormedPkg p) (hn : p.name = some n) :
    plainText n = true := by
  cases p with
  | mk hd es ps =>
    rw [WellFormedPkg] at h
    have h1 := h.1.2
    have h2 : nameOf hd = some n := hn
    unfold nameOf at h2
    split at h2
    · next s hs =>
      cases h2
      simpa [plainVal] using plain_get (by simpa [plainVal] using h1) hs
    · cases h2

theorem package_plain {ps : List Pkg} {way : List String} {p : Pkg} (h : PackageAt ps way p) :
    WellFormedPkgs ps → (∀ n ∈ way, plainText n = true) := by
  induction h with
  | here h1 h2 =>
    intro hw
    have := head_plain (wf_mem hw h1) h2
    simpa using this
  | inside h1 h2 h3 ih =>
    intro hw
    have := head_plain (wf_mem hw h1) h2
    simpa [this] using ih (wf_parts (wf_mem hw h1)).2

theorem element_plain {ps : List Pkg} {way : List String} {v : Val Cls} (h : ElementAt ps way v)
    (hw : WellFormedPkgs ps) : ∀ n ∈ way, plainText n = true := by
  obtain ⟨c, fs, hv, -, hwf⟩ := elem_wf h hw
  cases h with
  | mk hp hm hn =>
    subst hv
    have h1 := package_plain hp hw
    have h2 : nameOf fs = some _ := hn
    unfold nameOf at h2
    split at h2
    · next s hs =>
      cases h2
      have h3 := plain_get (by simpa [plainVal] using hwf.2) hs
      intro n hn
      rcases List.mem_append.1 hn with hn | hn
      · exact h1 n hn
      · rw [List.mem_singleton.1 hn]; simpa [plainVal] using h3
    · cases h2

theorem slash_ne (a b : String) : a ++ "/" ++ b ≠ "" := by
  intro h
  have := congrArg String.toList h
  simp at this

theorem ref_text_ok (c d : String) {s : String} (h : s ≠ "") :
    refValOk ⟨c, s, d⟩ = refValOk ⟨c, "x", d⟩ := by
  simp [refValOk, h]

theorem port_ref_ok {s : String} (k : Swc.PortKind) (h : s ≠ "") :
    refValOk ⟨"PortPrototypeRef", s, destOf k⟩ = true := by
  rw [ref_text_ok _ _ h]
  cases k <;> decide +kernel

theorem comp_ref_ok {s : String} (h : s ≠ "") :
    refValOk ⟨"SwComponentPrototypeRef", s, "SW_COMPONENT_PROTOTYPE"⟩ = true := by
  rw [ref_text_ok _ _ h]
  decide +kernel

/-- Well-formed from its fields. -/
theorem obj_wf {c : Cls} {fs : List (String × Val Cls)}
    (ho : orderOk (tables.schema c) (fs.map (·.1)) = true)
    (hf : hasFields tables (tables.schema c) fs = true) (hp : plainFields xmlAttrs fs = true) :
    WellFormed c (.obj c fs) :=
  ⟨by simp [hasS, ho, hf], by simpa [plainVal] using hp⟩

/-- The classes of instance references with the ports they accept. -/
def takes : Cls → Swc.PortKind → Bool
  | .ProviderPortInstanceRef, k => k ≠ .r
  | .RequesterPortInstanceRef, k => k ≠ .p
  | .InnerProvidedPortInstanceRef, k => k ≠ .r
  | .InnerRequiredPortInstanceRef, k => k = .r
  | _, _ => false

theorem inst_wf {c : Cls} {k : Swc.PortKind} (hc : takes c k = true) {s t : String} (hs : s ≠ "")
    (ht : t ≠ "") (ps : plainText s = true) (pt : plainText t = true) :
    WellFormed c (.obj c
      [("component_ref", .ref ⟨"SwComponentPrototypeRef", s, "SW_COMPONENT_PROTOTYPE"⟩),
       ("port_ref", .ref ⟨"PortPrototypeRef", t, destOf k⟩)]) := by
  have key : ∃ ds b, destOf k ∈ ds ∧ tables.schema c =
      [Schema.opt "component_ref" [.ref "SwComponentPrototypeRef"],
        { Schema.opt "port_ref" [.refTo "PortPrototypeRef" ds] with req := b }] := by
    let pro := ["ABSTRACT_PROVIDED_PORT_PROTOTYPE", "P_PORT_PROTOTYPE", "PR_PORT_PROTOTYPE"]
    let req := ["ABSTRACT_REQUIRED_PORT_PROTOTYPE", "R_PORT_PROTOTYPE", "PR_PORT_PROTOTYPE"]
    unfold takes at hc
    split at hc
    · exact ⟨pro, false, by cases k <;> simp_all [pro, destOf], rfl⟩
    · exact ⟨req, false, by cases k <;> simp_all [req, destOf], rfl⟩
    · exact ⟨pro, true, by cases k <;> simp_all [pro, destOf], rfl⟩
    · exact ⟨["ABSTRACT_REQUIRED_PORT_PROTOTYPE", "R_PORT_PROTOTYPE"], true,
        by cases k <;> simp_all [destOf], rfl⟩
    · cases hc
  obtain ⟨ds, b, hd, hsch⟩ := key
  refine obj_wf ?_ ?_ ?_
  · rw [hsch]
    cases b <;> rfl
  · refine fields_ok (f := Schema.opt "component_ref" [.ref "SwComponentPrototypeRef"]) ?_ ?_
      (fields_ok (f := { Schema.opt "port_ref" [.refTo "PortPrototypeRef" ds] with req := b }) ?_ ?_ rfl)
    · rw [hsch]; rfl
    · simp [hasField, Schema.opt, hasS, comp_ref_ok hs]
    · rw [hsch]; rfl
    · simp [hasField, Schema.opt, hasS, port_ref_ok k ht, hd]
  · simp [plainFields, plainVal, ps, pt, xmlAttrs]

theorem name_ok {s : String} (h : s ≠ "") : hasField tables (Schema.req "name" [.str]) (.str s) = true := by
  simp [hasField, Schema.req, hasS, h]

theorem port_ok {a s : String} (k : Swc.PortKind) (h : s ≠ "") :
    hasField tables (Schema.opt a [.ref "PortPrototypeRef"])
      (.ref ⟨"PortPrototypeRef", s, destOf k⟩) = true := by
  simp [hasField, Schema.opt, hasS, port_ref_ok k h]

/-- The inner port of a delegation. -/
theorem inner_takes (i : Swc.InstRef) {s : String} {k : Swc.PortKind} (h : i.port = some ⟨s, k⟩) :
    takes (innerClass i) k = true := by
  unfold innerClass
  rw [h]
  cases k <;> rfl

theorem not_attr {k : String} (h : k ∈ ["name", "provide_port", "require_port", "inner_port", "outer_port",
    "connectors"]) : k ∉ xmlAttrs := by
  revert k
  decide +kernel

theorem assembly_wf {n : String} {i j : Swc.InstRef} {b : Bool} (hn : n ≠ "") (pn : plainText n = true)
    (hi : WellFormed .ProviderPortInstanceRef (instObj .ProviderPortInstanceRef i))
    (hj : WellFormed .RequesterPortInstanceRef (instObj .RequesterPortInstanceRef j)) :
    WellFormed .AssemblySwConnector (connectorObj ⟨n, .assembly i j, b⟩) := by
  refine obj_wf rfl ?_ ?_
  · refine fields_ok (named_cls _ (by simp)) (name_ok hn)
      (fields_ok (f := Schema.opt "provide_port" [.cls .ProviderPortInstanceRef]) rfl ?_
        (fields_ok (f := Schema.opt "require_port" [.cls .RequesterPortInstanceRef]) rfl ?_ rfl))
    · have := hi.1
      simp only [hasField, Schema.opt, List.any_cons, this, Bool.true_or]
    · have := hj.1
      simp only [hasField, Schema.opt, List.any_cons, this, Bool.true_or]
  · simp only [plainFields, hi.2, hj.2, plainVal, pn, not_attr, List.mem_cons, true_or, or_true,
      not_false_eq_true, decide_true, Bool.and_true, Bool.true_or, Bool.and_self]

theorem delegation_wf {n : String} {i : Swc.InstRef} {s : String} {k : Swc.PortKind} {b : Bool}
    (hn : n ≠ "") (pn : plainText n = true) (hi : WellFormed (innerClass i) (instObj (innerClass i) i))
    (hs : s ≠ "") (ps : plainText s = true) :
    WellFormed .DelegationSwConnector (connectorObj ⟨n, .delegation i (some ⟨s, k⟩), b⟩) := by
  refine obj_wf rfl ?_ ?_
  · refine fields_ok (named_cls _ (by simp)) (name_ok hn)
      (fields_ok (f := Schema.opt "inner_port"
          [.cls .InnerProvidedPortInstanceRef, .cls .InnerRequiredPortInstanceRef]) rfl ?_
        (fields_ok (f := Schema.opt "outer_port" [.ref "PortPrototypeRef"]) rfl (port_ok k hs) rfl))
    have h1 := hi.1
    have h2 : innerClass i = .InnerProvidedPortInstanceRef ∨
        innerClass i = .InnerRequiredPortInstanceRef := by
      unfold innerClass; split <;> simp
    rcases h2 with h2 | h2
    · rw [h2] at h1 ⊢
      simp only [hasField, Schema.opt, List.any_cons, h1, Bool.true_or]
    · rw [h2] at h1 ⊢
      simp only [hasField, Schema.opt, List.any_cons, h1, Bool.true_or, Bool.or_true]
  · simp only [plainFields, hi.2, plainVal, pn, ps, not_attr, List.mem_cons, true_or, or_true, refAttr,
      portRefObj, Option.map_some, List.cons_append, List.nil_append,
      not_false_eq_true, decide_true, Bool.and_true, Bool.true_or, Bool.and_self]

theorem pass_wf {n : String} {s t : String} {k l : Swc.PortKind} {b : Bool}
    (hn : n ≠ "") (pn : plainText n = true) (hs : s ≠ "") (ps : plainText s = true)
    (ht : t ≠ "") (pt : plainText t = true) :
    WellFormed .PassThroughSwConnector
      (connectorObj ⟨n, .passThrough (some ⟨s, k⟩) (some ⟨t, l⟩), b⟩) := by
  refine obj_wf rfl ?_ ?_
  · exact fields_ok (named_cls _ (by simp)) (name_ok hn)
      (fields_ok (f := Schema.opt "provide_port" [.ref "PortPrototypeRef"]) rfl (port_ok k hs)
        (fields_ok (f := Schema.opt "require_port" [.ref "PortPrototypeRef"]) rfl (port_ok l ht) rfl))
  · simp only [plainFields, plainVal, pn, ps, pt, not_attr, List.mem_cons, true_or, or_true, refAttr,
      portRefObj, Option.map_some, List.cons_append, List.nil_append,
      not_false_eq_true, decide_true, Bool.and_true, Bool.true_or, Bool.and_self]

theorem connector_wf {ps : List Pkg} {way : List String} {v : Val Cls} {e1 e2 : Swc.Spec.End} {d e : End}
    {k : Swc.Connector} (hw : WellFormedPkgs ps) (hv : ElementAt ps way v)
    (h1 : Fits ps way v e1 d) (h2 : Fits ps way v e2 e)
    (h : Swc.Spec.Joins (compOf way v) e1 e2 k.name k.joint) :
    GoodName k.name ∧ elemName (connectorObj k) = some k.name ∧
    ∃ c ∈ [Cls.AssemblySwConnector, .DelegationSwConnector, .PassThroughSwConnector],
      WellFormed c (connectorObj k) := by
  have hway := element_plain hv hw
  have hport : ∀ {owner x p}, PortAt ps owner x p → plainText (absRef owner ++ "/" ++ p.name) = true := by
    intro owner x p hp
    obtain ⟨t, ht, -, -⟩ := hp.owned
    rw [plain_append, plain_append, plain_ref (element_plain ht hw), hp.is.plain]
    rfl
  have hcomp : ∀ {n : String}, plainText n = true → plainText (absRef way ++ "/" ++ n) = true := by
    intro n hn
    rw [plain_append, plain_append, plain_ref hway, hn]
    rfl
  have hne : ∀ a b : String, a ++ "_" ++ b ≠ "" := by
    intro a b h
    have := congrArg String.toList h
    simp at this
  have hgood : ∀ {a b : String}, '/' ∉ a.toList → '/' ∉ b.toList → '/' ∉ (a ++ "_" ++ b).toList := by
    intro a b ha hb
    simp [ha, hb]
  have hpl : ∀ {a b : String}, plainText a = true → plainText b = true → plainText (a ++ "_" ++ b) = true := by
    intro a b ha hb
    rw [plain_append, plain_append, ha, hb]
    rfl
  obtain ⟨name, joint, b⟩ := k
  simp only at h
  cases h with
  | assembly f1 t1 p1 f2 t2 p2 k1 k2 =>
    cases h1 with
    | inner a1 a2 a3 a4 a5 a6 =>
      cases h2 with
      | inner b1 b2 b3 b4 b5 b6 =>
        refine ⟨⟨hne _ _, hgood (hgood (hgood a3.2 a6.name.2) b3.2) b6.name.2⟩, rfl,
          .AssemblySwConnector, by simp, ?_⟩
        have i1 := inst_wf (c := .ProviderPortInstanceRef) (k := p1.kind) (by rw [k1]; rfl)
          (slash_ne _ _) (slash_ne _ _) (hcomp a4) (hport a6)
        have i2 := inst_wf (c := .RequesterPortInstanceRef) (k := p2.kind) (by rw [k2]; rfl)
          (slash_ne _ _) (slash_ne _ _) (hcomp b4) (hport b6)
        rw [← inst_of a5] at i1
        rw [← inst_of b5] at i2
        exact assembly_wf (hne _ _) (hpl (hpl (hpl a4 a6.is.plain) b4) b6.is.plain) i1 i2
  | assembly' f1 t1 p1 f2 t2 p2 k1 k2 =>
    cases h1 with
    | inner a1 a2 a3 a4 a5 a6 =>
      cases h2 with
      | inner b1 b2 b3 b4 b5 b6 =>
        refine ⟨⟨hne _ _, hgood (hgood (hgood b3.2 b6.name.2) a3.2) a6.name.2⟩, rfl,
          .AssemblySwConnector, by simp, ?_⟩
        have i1 := inst_wf (c := .RequesterPortInstanceRef) (k := p1.kind) (by rw [k1]; rfl)
          (slash_ne _ _) (slash_ne _ _) (hcomp a4) (hport a6)
        have i2 := inst_wf (c := .ProviderPortInstanceRef) (k := p2.kind) (by rw [k2]; rfl)
          (slash_ne _ _) (slash_ne _ _) (hcomp b4) (hport b6)
        rw [← inst_of a5] at i1
        rw [← inst_of b5] at i2
        exact assembly_wf (hne _ _) (hpl (hpl (hpl b4 b6.is.plain) a4) a6.is.plain) i2 i1
  | delegation f t p q =>
    cases h1 with
    | inner a1 a2 a3 a4 a5 a6 =>
      cases h2 with
      | outer b1 b2 =>
        have i1 := inst_wf (k := p.kind) (inner_takes (Swc.Spec.instOf (compOf way v) f t p)
          (inst_port a5))
          (slash_ne _ _) (slash_ne _ _) (hcomp a4) (hport a6)
        rw [← inst_of a5] at i1
        refine ⟨?_, rfl, .DelegationSwConnector, by simp, delegation_wf ?_ ?_ i1 (slash_ne _ _) (hport b1)⟩
        · split
          · exact ⟨hne _ _, hgood (hgood a3.2 a6.name.2) b1.name.2⟩
          · exact ⟨hne _ _, hgood (hgood b1.name.2 a3.2) a6.name.2⟩
        · split <;> exact hne _ _
        · split
          · exact hpl (hpl a4 a6.is.plain) b1.is.plain
          · exact hpl (hpl b1.is.plain a4) a6.is.plain
  | delegation' f t p q =>
    cases h1 with
    | outer b1 b2 =>
      cases h2 with
      | inner a1 a2 a3 a4 a5 a6 =>
        have i1 := inst_wf (k := p.kind) (inner_takes (Swc.Spec.instOf (compOf way v) f t p)
          (inst_port a5))
          (slash_ne _ _) (slash_ne _ _) (hcomp a4) (hport a6)
        rw [← inst_of a5] at i1
        refine ⟨?_, rfl, .DelegationSwConnector, by simp, delegation_wf ?_ ?_ i1 (slash_ne _ _) (hport b1)⟩
        · split
          · exact ⟨hne _ _, hgood (hgood a3.2 a6.name.2) b1.name.2⟩
          · exact ⟨hne _ _, hgood (hgood b1.name.2 a3.2) a6.name.2⟩
        · split <;> exact hne _ _
        · split
          · exact hpl (hpl a4 a6.is.plain) b1.is.plain
          · exact hpl (hpl b1.is.plain a4) a6.is.plain
  | passThrough p q =>
    cases h1 with
    | outer a1 a2 =>
      cases h2 with
      | outer b1 b2 =>
        exact ⟨⟨hne _ _, hgood a1.name.2 b1.name.2⟩, rfl, .PassThroughSwConnector, by simp,
          pass_wf (hne _ _) (hpl a1.is.plain b1.is.plain) (slash_ne _ _) (hport a1) (slash_ne _ _) (hport b1)⟩

end Verif.Codec.Connect
