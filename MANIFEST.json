{
 "claims": [
  {
   "property": "C01",
   "status": "proved",
   "theorems": [
    "Verif.Props.Pkg.C01_sibling_names_unique"
   ],
   "note": ""
  },
  {
   "property": "C02",
   "status": "proved",
   "theorems": [
    "Verif.Props.Pkg.C02_rejected_append_unchanged",
    "Verif.Props.Pkg.C02_duplicate_append_raises",
    "Verif.Props.Pkg.C02_fresh_append_accepted",
    "Verif.Props.Pkg.C02_other_items"
   ],
   "note": ""
  },
  {
   "property": "C03",
   "status": "proved",
   "theorems": [
    "Verif.Props.Pkg.C03_find_ref",
    "Verif.Props.Pkg.C03_find_ref_member",
    "Verif.Props.Pkg.C03_empty_name_counterexample",
    "Verif.Props.Pkg.C03_mode_transition_ref_diverges"
   ],
   "note": "Stated for the collection the parent chain leads to (root_collection()); names non-empty and without '/'. Counterexample theorems for empty names and for mode transitions (own parent)."
  },
  {
   "property": "C04",
   "status": "proved",
   "theorems": [
    "Verif.Props.Pkg.C04_ref_none_iff_detached",
    "Verif.Props.Pkg.C04_ref_deterministic",
    "Verif.Props.Pkg.C04_refs_distinct"
   ],
   "note": ""
  },
  {
   "property": "C05",
   "status": "proved",
   "theorems": [
    "Verif.Props.Pkg.C05_collection_make_packages",
    "Verif.Props.Pkg.C05_collection_make_many",
    "Verif.Props.Pkg.C05_package_make_packages",
    "Verif.Props.Pkg.C05_make_packages_outcome",
    "Verif.Props.Pkg.C05_make_packages_failure_frame",
    "Verif.Props.Pkg.C05_failure_not_atomic"
   ],
   "note": "Failing calls are not atomic (C05_failure_not_atomic); they only ever add packages."
  },
  {
   "property": "C06",
   "status": "partial",
   "theorems": [
    "Verif.Props.Pkg.C06_duplicate_create_does_not_raise",
    "Verif.Props.Pkg.C06_create_package_partial"
   ],
   "note": "False of the code as stated: negation proved; what create_package does instead is proved exactly."
  },
  {
   "property": "C07",
   "status": "partial",
   "theorems": [
    "Verif.Props.Pkg.C07_segmentation",
    "Verif.Props.Pkg.C07_find_contained",
    "Verif.Props.Pkg.C07_find_exact_partial",
    "Verif.Props.Pkg.C07_find_item_sound",
    "Verif.Props.Pkg.C07_below_element_counterexample",
    "Verif.Props.Pkg.C07_find_below_element"
   ],
   "note": "Exact for paths that do not run through an element; below an element the element's own search decides (may raise AttributeError), counterexample proved."
  },
  {
   "property": "C08",
   "status": "proved",
   "theorems": [
    "Verif.Props.Ref.C08_dest_accepted",
    "Verif.Props.Ref.C08_single_default",
    "Verif.Props.Ref.C08_several_need_dest",
    "Verif.Props.Ref.C08_given_dest",
    "Verif.Props.Ref.C08_port_sides",
    "Verif.Props.Ref.C08_dests_writable"
   ],
   "note": "Omitting dest on a class with several destinations raises TypeError (not the intended ValueError): building the message sorts enum members."
  },
  {
   "property": "C09",
   "status": "proved",
   "theorems": [
    "Verif.Props.Ref.C09_compatible_accepted",
    "Verif.Props.Ref.C09_incompatible_rejected",
    "Verif.Props.Ref.C09_history"
   ],
   "note": ""
  },
  {
   "property": "C10",
   "status": "partial",
   "theorems": [
    "Verif.Props.Names.C10_fresh_partial",
    "Verif.Props.Names.C10_effect_partial",
    "Verif.Props.Names.C10_regex_counterexample"
   ],
   "note": "Proved for base names without regular-expression metacharacters (the code puts the base name unescaped into a pattern); counterexample theorem for 'a+b'."
  },
  {
   "property": "C11",
   "status": "partial",
   "theorems": [
    "Verif.Props.Names.C11_unique_partial",
    "Verif.Props.Names.C11_step_exact",
    "Verif.Props.Names.C11_counterexample"
   ],
   "note": "False in general (C11_counterexample: x, x_0, x). Uniqueness proved for histories whose base names never look like a generated suffix; C11_step_exact says what one creation does."
  },
  {
   "property": "C12",
   "status": "partial",
   "theorems": [
    "Verif.Props.CodecRename.C12_reload_counterexample",
    "Verif.Props.Names.C12_step_exact",
    "Verif.Props.Names.C12_distinct_partial",
    "Verif.Props.Names.C12_third_append_collides",
    "Verif.Props.Names.C12_counterexample"
   ],
   "note": "False in general: the third append of one name always collides (C12_third_append_collides). Proved: exact effect of a step, distinctness for at most two appends per name. C12_reload_counterexample: such a runnable comes back from a file with other names."
  },
  {
   "property": "C13",
   "status": "partial",
   "theorems": [
    "Verif.Props.Num.C13_interval_partial",
    "Verif.Props.Num.C13_nan_accepted",
    "Verif.Props.Num.C13_nan_limit_ignored",
    "Verif.Props.Num.C13_absent_limit_raises"
   ],
   "note": "Exact for all present limits and values other than NaN; NaN always passes and an absent limit raises TypeError (proved)."
  },
  {
   "property": "C14",
   "status": "proved",
   "theorems": [
    "Verif.Props.Num.C14_scales",
    "Verif.Props.Num.C14_rejects",
    "Verif.Props.Num.C14_strings"
   ],
   "note": ""
  },
  {
   "property": "C15",
   "status": "proved",
   "theorems": [
    "Verif.Props.Value.C15_builds",
    "Verif.Props.Value.C15_rejects",
    "Verif.Props.Value.C15_definite",
    "Verif.Props.Value.C15_expressive",
    "Verif.Props.Value.C15_init_value"
   ],
   "note": ""
  },
  {
   "property": "C16",
   "status": "proved",
   "theorems": [
    "Verif.Props.Enums.C16_write_read",
    "Verif.Props.Enums.C16_texts_distinct",
    "Verif.Props.Enums.C16_total_at_default",
    "Verif.Props.Enums.C16_read_write",
    "Verif.Props.Enums.C16_no_xml",
    "Verif.Props.Enums.C16_version_error"
   ],
   "note": ""
  },
  {
   "property": "C17",
   "status": "proved",
   "theorems": [
    "Verif.Props.Xml.C17_balanced",
    "Verif.Props.Xml.C17_nested",
    "Verif.Props.Xml.C17_lines",
    "Verif.Props.Xml.C17_parses",
    "Verif.Props.Xml.C17_document_parses"
   ],
   "note": "Parsing is against a specification of XML (Verif/Xml/Parse.lean), for content that needs no escaping (see C18); balance and indentation hold for every content."
  },
  {
   "property": "C18",
   "status": "partial",
   "theorems": [
    "Verif.Props.Xml.C18_exact_partial",
    "Verif.Props.Xml.C18_counterexample",
    "Verif.Props.Xml.C18_attribute_counterexample"
   ],
   "note": "False: text is written unescaped. C18_exact_partial characterises exactly the texts that survive; counterexamples for text and attributes."
  },
  {
   "property": "C19",
   "status": "partial",
   "theorems": [
    "Verif.Props.Num.C19_decimal",
    "Verif.Props.Num.C19_notation_partial",
    "Verif.Props.Num.C19_decimal_notation",
    "Verif.Props.Num.C19_negative_counterexample",
    "Verif.Props.Num.C19_negative_text",
    "Verif.Props.Num.C19_scientific_counterexample"
   ],
   "note": "False for negative hexadecimal/binary values (proved for every negative integer); scientific notation keeps seven digits (proved witness); proved for all other cases."
  },
  {
   "property": "C20",
   "status": "partial",
   "theorems": [
    "Verif.Props.Num.C20_value_kept_partial",
    "Verif.Props.Num.C20_fractional_exact",
    "Verif.Props.Num.C20_integral_plain",
    "Verif.Props.Num.C20_special",
    "Verif.Props.Num.C20_fails_iff",
    "Verif.Props.Num.C20_counterexample"
   ],
   "note": "C20_fails_iff: writing fails exactly for integral floats with 29 or more digits; all other finite floats and the special values proved. float(text)/str(float) taken as identity on shortest decimal representation."
  },
  {
   "property": "C21",
   "status": "proved",
   "theorems": [
    "Verif.Props.CodecValue.C21_survives",
    "Verif.Props.CodecValue.C21_constants",
    "Verif.Props.CodecValue.C21_findings"
   ],
   "note": "Nothing is lost. For objects whose strings are non-empty and need no escaping; whole floats come back as ints; Verif/Codec/*."
  },
  {
   "property": "C22",
   "status": "proved",
   "theorems": [
    "Verif.Props.CodecPackage.C22_documents",
    "Verif.Props.CodecRename.C22_names",
    "Verif.Props.CodecRename.C22_renamed"
   ],
   "note": "For both writer modes and both reader modes; contents of elements as in C21, C23-C25, C42-C46 (remains). Schema versions below 50 are excluded by hypothesis because exclusive areas of runnables are written differently there. C22_names: the names of access points also survive what constructors do to them, if they are distinct. C22_renamed: without assuming them distinct, exactly how they are changed."
  },
  {
   "property": "C23",
   "status": "partial",
   "theorems": [
    "Verif.Props.CodecTypes.C23_survives_partial",
    "Verif.Props.CodecTypes.C23_findings"
   ],
   "note": "Full equality is false of the code (C23_findings). C23_survives_partial: what comes back is exactly the object without the UUIDs of implementation and application data types and their elements and with only the first annotation."
  },
  {
   "property": "C24",
   "status": "partial",
   "theorems": [
    "Verif.Props.CodecCompu.C24_survives_partial",
    "Verif.Props.CodecCompu.C24_findings"
   ],
   "note": "Full equality is false of the code (C24_findings). C24_survives_partial: what comes back is exactly the object without the validity of scale constraints, up to ints for whole floats."
  },
  {
   "property": "C25",
   "status": "partial",
   "theorems": [
    "Verif.Props.CodecDoc.C25_intact_partial",
    "Verif.Props.CodecDoc.C25_text_parts",
    "Verif.Props.CodecDoc.C25_texts",
    "Verif.Props.CodecDoc.C25_unit_names",
    "Verif.Props.CodecDoc.C25_findings"
   ],
   "note": "Full equality is false of the code (C25_findings, C23_findings for annotations). C25_intact_partial: documentation objects whose texts have text only before technical terms come back unchanged. C25_text_parts, C25_texts, C25_unit_names: for every order of text and inline elements, exactly what comes back or that reading raises (which exception is not stated: with a superscript in a long name append raises TypeError before the ParseError)."
  },
  {
   "property": "C26",
   "status": "proved",
   "theorems": [
    "Verif.Props.CodecPackage.C26_keeps_first",
    "Verif.Props.CodecPackage.C26_stops",
    "Verif.Props.CodecPackage.C26_outcome",
    "Verif.Props.CodecPackage.C26_any_children",
    "Verif.Props.CodecPackage.C26_any_repetition",
    "Verif.Props.CodecPackage.C26_subpackages",
    "Verif.Props.CodecPackage.C26_root_packages"
   ],
   "note": "C26_outcome: whole documents through text, any repetition of names at any level, with the exact outcome. C26_keeps_first, C26_stops: the cases with repeated elements only. C26_any_children, C26_any_repetition: any children of ELEMENTS, including unreadable ones. C26_subpackages, C26_root_packages: sub-packages and root packages raise instead."
  },
  {
   "property": "C27",
   "status": "proved",
   "theorems": [
    "Verif.Props.WorkTemplate.C27_create_once",
    "Verif.Props.WorkTemplate.C27_same_element",
    "Verif.Props.WorkTemplate.C27_dependency_there",
    "Verif.Props.WorkTemplate.C27_found_at_ref",
    "Verif.Props.WorkTemplate.C27_dependencies_first",
    "Verif.Props.WorkTemplate.C27_counterexample",
    "Verif.Props.WorkTemplate.C27_errors"
   ],
   "note": "For every history of package operations, namespace/role set-up and template applications, over templates that append to the package, whose create method returns the announced name, and whose name has no '/'. Create methods are arbitrary scripts of package calls that do not themselves apply templates; C27_counterexample shows what happens with append_to_package=False or another returned name."
  },
  {
   "property": "C28",
   "status": "proved",
   "theorems": [
    "Verif.Props.WorkPath.C28_role_reference",
    "Verif.Props.WorkPath.C28_absolute_path",
    "Verif.Props.WorkPath.C28_place_unique",
    "Verif.Props.WorkPath.C28_errors",
    "Verif.Props.WorkPath.C28_counterexample"
   ],
   "note": "For base references starting with exactly one slash, which includes the default; C28_counterexample shows what happens otherwise. posixpath.join/normpath are modelled from the Python standard library."
  },
  {
   "property": "C29",
   "status": "partial",
   "theorems": [
    "Verif.Props.WorkDocs.C29_found_as_before",
    "Verif.Props.WorkDocs.C29_found_from_workspace",
    "Verif.Props.WorkDocs.C29_references_kept_partial",
    "Verif.Props.WorkDocs.C29_second_write_raises",
    "Verif.Props.WorkDocs.C29_counterexample"
   ],
   "note": "Found-as-before holds for every outcome. References are kept for top-level packages and consistent mappings only; false for nested packages, and a second write always raises (C29_counterexample, C29_second_write_raises)."
  },
  {
   "property": "C30",
   "status": "proved",
   "theorems": [
    "Verif.Props.WorkDocs.C30_mapping",
    "Verif.Props.WorkDocs.C30_content_unique",
    "Verif.Props.WorkDocs.C30_no_package",
    "Verif.Props.WorkDocs.C30_counterexample"
   ],
   "note": "For packages with a resolvable reference and distinct non-empty suffixes; C30_counterexample covers duplicate suffixes, string suffixes and packages written to a document before. The type filter is an arbitrary predicate on objects."
  },
  {
   "property": "C31",
   "status": "proved",
   "theorems": [
    "Verif.Props.Impl.C31_defined_before_use",
    "Verif.Props.Impl.C31_each_once",
    "Verif.Props.Impl.C31_order_exists",
    "Verif.Props.Impl.C31_late_source_counterexample"
   ],
   "note": "For every history of requests. Elements handed over directly must be attached to the workspace. Separate finding: a type first created as a dependency is not recorded as a source afterwards (C31_late_source_counterexample)."
  },
  {
   "property": "C32",
   "status": "proved",
   "theorems": [
    "Verif.Props.Impl.C32_same_object",
    "Verif.Props.Impl.C32_one_per_reference",
    "Verif.Props.Impl.C32_right_object",
    "Verif.Props.Impl.C32_detached_counterexample"
   ],
   "note": "For every history, including failing requests and cyclic references; elements handed over directly must be attached (C32_detached_counterexample shows why)."
  },
  {
   "property": "C33",
   "status": "partial",
   "theorems": [
    "Verif.Props.SwcConnect.C33_kind",
    "Verif.Props.SwcConnect.C33_created",
    "Verif.Props.SwcConnect.C33_same_direction_rejected",
    "Verif.Props.SwcConnect.C33_unknown_port_rejected",
    "Verif.Props.SwcConnect.C33_refused_unchanged",
    "Verif.Props.SwcConnect.C33_direction_partial",
    "Verif.Props.SwcConnect.C33_names_distinct",
    "Verif.Props.SwcConnect.C33_counterexample"
   ],
   "note": "Kind of connector, references and names proved for every composition. Missing: directions of delegation and pass-through connectors are not checked by the code, so the direction part holds for assembly connectors only (C33_counterexample)."
  },
  {
   "property": "C34",
   "status": "partial",
   "theorems": [
    "Verif.Props.SwcComSpec.C34_specs_partial",
    "Verif.Props.SwcComSpec.C34_unknown_rejected",
    "Verif.Props.SwcComSpec.C34_succeeds",
    "Verif.Props.SwcComSpec.C34_single",
    "Verif.Props.SwcComSpec.C34_empty",
    "Verif.Props.SwcComSpec.C34_port",
    "Verif.Props.SwcComSpec.C34_port_refused_unchanged",
    "Verif.Props.SwcComSpec.C34_port_list",
    "Verif.Props.SwcComSpec.C34_pr_port",
    "Verif.Props.SwcComSpec.C34_pr_port_single",
    "Verif.Props.SwcComSpec.C34_findings"
   ],
   "note": "Proved for all interfaces whose element names are distinct, whatever the com-spec constructors accept (they are a parameter). With repeated names the second element gets no com-spec (C34_findings). Unknown names are always rejected, but with TypeError on the require side."
  },
  {
   "property": "C35",
   "status": "partial",
   "theorems": [
    "Verif.Props.SwcAccess.C35_parse",
    "Verif.Props.SwcAccess.C35_any_case",
    "Verif.Props.SwcAccess.C35_unambiguous",
    "Verif.Props.SwcAccess.C35_documented",
    "Verif.Props.SwcAccess.C35_points_partial",
    "Verif.Props.SwcAccess.C35_malformed_rejected",
    "Verif.Props.SwcAccess.C35_mode_default",
    "Verif.Props.SwcAccess.C35_parameter",
    "Verif.Props.SwcAccess.C35_findings"
   ],
   "note": "Proved for all strings: a text is accepted iff it has the form [PREFIX:]port[/element] with a documented prefix (any case), is unambiguous, and documented combinations create exactly the access spelled; malformed texts, unknown ports and unknown elements are refused. Not true of the code and shown by C35_findings: prefixes of the other direction are taken, SWITCH on R ports, mode access on PR ports and calls on P ports are accepted without effect, failing lists keep earlier points. Renaming of existing points by append_* is modelled in C12 only."
  },
  {
   "property": "C36",
   "status": "proved",
   "theorems": [
    "Verif.Props.SwcBehavior.C36_all_or_nothing",
    "Verif.Props.SwcBehavior.C36_unknown_rejected",
    "Verif.Props.SwcBehavior.C36_exactly_named",
    "Verif.Props.SwcBehavior.C36_findings"
   ],
   "note": "For all behaviours and arguments: one runnable added or nothing changed; an unknown name is a ValueError; otherwise exactly the named areas are referenced. C36_findings: references mixed with names are dropped; names fail with TypeError outside a package; runnable names are not checked."
  },
  {
   "property": "C37",
   "status": "proved",
   "theorems": [
    "Verif.Props.SwcBehavior.C37_star",
    "Verif.Props.SwcBehavior.C37_names",
    "Verif.Props.SwcBehavior.C37_findings"
   ],
   "note": "For all components whose ports are in a package with names free of '/'. C37_names also states what happens on an unknown name: ValueError, but the known ports named with it keep their new options (C37_findings)."
  },
  {
   "property": "C38",
   "status": "proved",
   "theorems": [
    "Verif.Props.Ref.C38_split_join",
    "Verif.Props.Ref.C38_join_split",
    "Verif.Props.Ref.C38_split_total",
    "Verif.Props.Ref.C38_split_empty",
    "Verif.Props.Ref.C38_strict"
   ],
   "note": ""
  },
  {
   "property": "C39",
   "status": "partial",
   "theorems": [
    "Verif.Props.Ref.C39_last_write_partial",
    "Verif.Props.Ref.C39_reject_partial",
    "Verif.Props.Ref.C39_update_outcome_partial",
    "Verif.Props.Ref.C39_method_name_accepted",
    "Verif.Props.Ref.C39_unknown_rejected_false"
   ],
   "note": "Holds for all names that are not method names of the settings class; a setting named like a method is accepted and hides it (C39_method_name_accepted). Inherited double-underscore attribute names are outside the model."
  },
  {
   "property": "C40",
   "status": "proved",
   "theorems": [
    "Verif.Props.Num.C40_texts",
    "Verif.Props.Num.C40_decimal_texts",
    "Verif.Props.Ref.C40_history",
    "Verif.Props.Ref.C40_decision",
    "Verif.Props.Ref.C40_form_history",
    "Verif.Props.Ref.C40_form_decision",
    "Verif.Props.RefEnum.C40_enum_history",
    "Verif.Props.RefEnum.C40_enum_decision"
   ],
   "note": ""
  },
  {
   "property": "C41",
   "status": "proved",
   "theorems": [
    "Verif.Props.WorkDocs.C41_documents_contents"
   ],
   "note": "Serialisation is a recorded event (path, document, heap at that moment); the text is the subject of C17/C18 and the codec properties."
  },
  {
   "property": "C42",
   "status": "proved",
   "theorems": [
    "Verif.Props.CodecInterface.C42_survives",
    "Verif.Props.CodecInterface.C42_service_kind",
    "Verif.Props.CodecInterface.C42_findings"
   ],
   "note": "The exceptions named in the property are exact: they are the attributes lost/first of the theorem and nothing else is lost. C42_service_kind: a service kind makes writing raise, whatever else is set; it is therefore outside the round trip."
  },
  {
   "property": "C43",
   "status": "proved",
   "theorems": [
    "Verif.Props.CodecPort.C43_survives"
   ],
   "note": "The exceptions named in the property are exact: they are the attributes lost/first of the theorem and nothing else is lost."
  },
  {
   "property": "C44",
   "status": "proved",
   "theorems": [
    "Verif.Props.CodecSwc.C44_survives"
   ],
   "note": "The exceptions named in the property are exact: they are the attributes lost/first of the theorem and nothing else is lost."
  },
  {
   "property": "C45",
   "status": "proved",
   "theorems": [
    "Verif.Props.CodecBehavior.C45_survives",
    "Verif.Props.CodecRename.C45_names",
    "Verif.Props.CodecRename.C45_renamed"
   ],
   "note": "The exceptions named in the property are exact: they are the attributes lost/first of the theorem and nothing else is lost. C45_names: also with the names that constructors of runnables give, if they are distinct. C45_renamed: without assuming them distinct, each object read is the one written except that access points of the same name are numbered as the constructor numbers them."
  },
  {
   "property": "C46",
   "status": "proved",
   "theorems": [
    "Verif.Props.CodecImpl.C46_survives"
   ],
   "note": "The exceptions named in the property are exact: they are the attributes lost/first of the theorem and nothing else is lost."
  },
  {
   "property": "C47",
   "status": "partial",
   "theorems": [
    "Verif.Props.CodecPackage.C47_file_partial",
    "Verif.Props.CodecPackage.C47_str_counterexample",
    "Verif.Props.CodecPackage.C47_unversioned",
    "Verif.Props.CodecPackage.C47_schema_file"
   ],
   "note": "False for write_str without root attributes (C47_str_counterexample: the reader's version is used). C47_file_partial: true whenever the root attributes are written. C47_unversioned: files without a schemaLocation keep the reader's version. C47_schema_file: the name of the schema file denotes the version with five digits."
  },
  {
   "property": "C48",
   "status": "proved",
   "theorems": [
    "Verif.Props.CodecOrder.C48_element_trees",
    "Verif.Props.CodecOrder.C48_elements",
    "Verif.Props.CodecOrder.C48_document_trees",
    "Verif.Props.CodecOrder.C48_documents",
    "Verif.Props.CodecOrder.C48_swap",
    "Verif.Props.CodecOrder.C48_unknown",
    "Verif.Props.CodecOrder.C48_repeated",
    "Verif.Props.CodecOrder.C48_white_space"
   ],
   "note": "C48_document_trees, C48_element_trees (any parser's tree), C48_documents, C48_elements (texts) over the relation Alike (OrderSpec.lean: which elements are made of parts, which hold lists); C48_swap, C48_unknown, C48_repeated, C48_white_space: what the relation contains."
  },
  {
   "property": "C49",
   "status": "proved",
   "theorems": [
    "Verif.Props.CodecLoad.C49_well_formed",
    "Verif.Props.CodecLoad.C49_elements",
    "Verif.Props.CodecLoad.C49_documents_well_formed",
    "Verif.Props.CodecLoad.C49_documents",
    "Verif.Props.CodecLoad.C49_stable",
    "Verif.Props.CodecLoad.C49_counterexample"
   ],
   "note": "writable (LoadSpec.lean) is the condition, without any types; C49_well_formed and C49_documents_well_formed: everything read is well typed; C49_elements, C49_documents: saved and loaded again; C49_stable: no further change; C49_counterexample: the condition on strings is needed. The restriction to schema versions from 50 on is that of the codec model."
  },
  {
   "property": "C50",
   "status": "partial",
   "theorems": [
    "Verif.Props.CodecReject.C50_readable_partial",
    "Verif.Props.CodecReject.C50_errors",
    "Verif.Props.CodecReject.C50_counterexample",
    "Verif.Props.CodecReject.C50_identifiable"
   ],
   "note": "False for parts that are read but rejected by the constructors (C50_counterexample, C50_identifiable; the list is rejected in RejectSpec.lean). C50_readable_partial: true of all others, so that no type check of a constructor ever fails while reading; C50_errors: missing mandatory parts raise TypeError; negative sizes, and alignments and display formats that do not match their patterns, ValueError (the patterns are stated as regular expressions in PatternSpec.lean)."
  },
  {
   "property": "C51",
   "status": "partial",
   "theorems": [
    "Verif.Props.CodecTidy.C51_left_out_partial",
    "Verif.Props.CodecTidy.C51_kept",
    "Verif.Props.CodecTidy.C51_counterexample",
    "Verif.Props.CodecTidy.C51_introduction"
   ],
   "note": "False for exceptions other than ParseError and DuplicateElement (C51_counterexample, C51_introduction: the file cannot be read at all). C51_left_out_partial: true of elements of unknown kinds and those for which ParseError is raised; C51_kept: in every file that is read all elements that can be read by themselves are kept."
  },
  {
   "property": "C52",
   "status": "partial",
   "theorems": [
    "Verif.Props.CodecReject.C52_ignored",
    "Verif.Props.CodecReject.C52_unreadable"
   ],
   "note": "C52_ignored: administrative data with special data groups makes no difference, for all identifiable elements (so it is lost). False for other administrative data: C52_unreadable."
  },
  {
   "property": "C53",
   "status": "partial",
   "theorems": [
    "Verif.Props.CodecNum.C53_value_partial",
    "Verif.Props.CodecNum.C53_integers_partial",
    "Verif.Props.CodecNum.C53_same_partial",
    "Verif.Props.CodecNum.C53_counterexample",
    "Verif.Props.CodecNum.C53_octal_counterexample",
    "Verif.Props.CodecNum.C53_octal_unreadable"
   ],
   "note": "C53_value_partial: any number read from decimal, hexadecimal or binary text, anywhere, is right; C53_integers_partial, C53_same_partial: 38 attributes (integerParts in NotationSpec.lean) always take these notations. False of the 20 attributes in plainParts (C53_counterexample) and of octal numbers (C53_octal_counterexample, C53_octal_unreadable)."
  },
  {
   "property": "C54",
   "status": "partial",
   "theorems": [
    "Verif.Props.CodecMap.C54_says_partial",
    "Verif.Props.CodecMap.C54_text_partial",
    "Verif.Props.CodecMap.C54_files_partial",
    "Verif.Props.CodecMap.C54_written_partial",
    "Verif.Props.CodecMap.C54_counterexample"
   ],
   "note": "C54_says_partial, C54_text_partial: all elements and reader methods, against a table of places per class and attribute (parts in MapSpec.lean, 161 classes) that does not refer to reader or writer; C54_files_partial: files; C54_written_partial: what is written, through the round trip. False of 6 attributes that are never read (unread, C54_counterexample). Of mixed content the leading text and the elements are described, further text is C25."
  },
  {
   "property": "C55",
   "status": "partial",
   "theorems": [
    "Verif.Props.SwcEvent.C55_created_partial",
    "Verif.Props.SwcEvent.C55_possible",
    "Verif.Props.SwcEvent.C55_failed_partial",
    "Verif.Props.SwcEvent.C55_distinct_partial",
    "Verif.Props.SwcEvent.C55_failed_counterexample",
    "Verif.Props.SwcEvent.C55_rest_ignored",
    "Verif.Props.SwcEvent.C55_transition_finding",
    "Verif.Props.SwcEvent.C55_loaded_finding",
    "Verif.Props.SwcEvent.C55_group_finding"
   ],
   "note": "C55_created_partial (right runnable, port, element; other events kept), C55_possible (what is there can be asked for), C55_failed_partial, C55_distinct_partial (names after any sequence of calls). Excluded: texts with more than one slash (C55_rest_ignored), names with regular expression characters (C10), base names ending in _0 (C11). Failing calls that do change names: C55_failed_counterexample. Behaviours and mode groups read from files: C55_loaded_finding, C55_group_finding."
  },
  {
   "property": "C56",
   "status": "partial",
   "theorems": [
    "Verif.Props.CodecTypeHeader.C56_documents_partial",
    "Verif.Props.ImplHeader.C56_types_partial",
    "Verif.Props.ImplHeader.C56_include",
    "Verif.Props.ImplHeader.C56_c_counterexample",
    "Verif.Props.ImplHeader.C56_generated",
    "Verif.Props.ImplHeader.C56_names_counterexample",
    "Verif.Props.ImplHeader.C56_emitter_counterexample",
    "Verif.Props.ImplHeader.C56_symbol_counterexample"
   ],
   "note": "C56_types_partial (compiles, each type asked for is declared as the C type it stands for, nothing else), C56_generated, C56_include. Excluded: equal names in different packages (C56_names_counterexample), type references with another emitter (C56_emitter_counterexample); symbols are ignored (C56_symbol_counterexample). For C compilers the whole header is refused: C56_c_counterexample. C56_documents_partial: the same stated on the attributes of the objects of a document that has been saved and loaded, not on the model of the types."
  },
  {
   "property": "C57",
   "status": "partial",
   "theorems": [
    "Verif.Props.CodecOwner.C57_ref_partial",
    "Verif.Props.CodecOwner.C57_none",
    "Verif.Props.CodecOwner.C57_only",
    "Verif.Props.CodecOwner.C57_apart_partial",
    "Verif.Props.CodecOwner.C57_built",
    "Verif.Props.CodecOwner.C57_behavior_counterexample",
    "Verif.Props.CodecOwner.C57_apart_counterexample"
   ],
   "note": "C57_ref_partial (path and destination of the references of elements and parts), C57_none (None outside packages), C57_only (no ref() elsewhere), C57_apart_partial (equal references: equal names and class), C57_built (the parts of constructed objects are covered). Excluded: parts below the places listed as orphans, whose ref() is None (C57_none, C57_behavior_counterexample); access points of one name in different lists (C57_apart_counterexample)."
  },
  {
   "property": "C58",
   "status": "proved",
   "theorems": [
    "Verif.Props.WorkMap.C58_get",
    "Verif.Props.WorkMap.C58_unknown",
    "Verif.Props.WorkMap.C58_add",
    "Verif.Props.WorkMap.C58_find",
    "Verif.Props.WorkMap.C58_same",
    "Verif.Props.WorkMap.C58_apart",
    "Verif.Props.WorkMap.C58_failure",
    "Verif.Props.WorkMap.C58_finding"
   ],
   "note": "C58_get, C58_unknown, C58_add, C58_find, C58_same, C58_apart: at any time after the map was created. C58_failure and C58_finding: what a failing or empty call does."
  },
  {
   "property": "C59",
   "status": "partial",
   "theorems": [
    "Verif.Props.WorkConfig.C59_calls",
    "Verif.Props.WorkConfig.C59_loads",
    "Verif.Props.WorkConfig.C59_effect",
    "Verif.Props.WorkConfig.C59_accepted_partial",
    "Verif.Props.WorkConfig.C59_findings"
   ],
   "note": "C59_calls (effect of the corresponding calls, including errors), C59_loads (when there is none), C59_effect (what is there afterwards), C59_accepted_partial (what is loaded has the form required, except that packages may be a table and settings may be named like methods: C59_findings). tomllib is not modelled."
  },
  {
   "property": "C60",
   "status": "proved",
   "theorems": [
    "Verif.Props.CodecAppend.C60_same",
    "Verif.Props.CodecAppend.C60_refused"
   ],
   "note": "C60_same, C60_refused, for the append methods of Codec/Append.lean (all but those of packages and append_port_api_option, which fills a dictionary). A regular expression outside the model of names leaves both sides undefined (none)."
  },
  {
   "property": "C61",
   "status": "proved",
   "theorems": [
    "Verif.Props.CodecFind.C61_reload",
    "Verif.Props.CodecFind.C61_way",
    "Verif.Props.CodecFind.C61_ref",
    "Verif.Props.CodecFind.C61_findings"
   ],
   "note": "C61_reload (every string), C61_way (paths of names), C61_ref (what ref() returns). C61_findings: which parts find does not reach. Names must be non-empty without '/', which the constructors do not check; parts of one element found by name must have different names."
  },
  {
   "property": "C62",
   "status": "proved",
   "theorems": [
    "Verif.Props.CodecCreate.C62_created",
    "Verif.Props.CodecCreate.C62_refused",
    "Verif.Props.CodecCreate.C62_prototype",
    "Verif.Props.CodecCreate.C62_behavior",
    "Verif.Props.CodecCreate.C62_error_ref",
    "Verif.Props.CodecCreate.C62_policy"
   ],
   "note": "C62_created and C62_refused for the methods that pass their arguments on, C62_prototype, C62_behavior, C62_error_ref, C62_policy for the others. Simplifications of constructors as in C60; admin_data is left out as in the rest of the codec. create_runnable, ports, events and connectors are C33-C37."
  },
  {
   "property": "C63",
   "status": "proved",
   "theorems": [
    "Verif.Props.CodecOlder.C63_elements",
    "Verif.Props.CodecOlder.C63_documents",
    "Verif.Props.CodecOlder.C63_newer",
    "Verif.Props.CodecOlder.C63_refused",
    "Verif.Props.CodecOlder.C63_crossed"
   ],
   "note": "C63_elements for elements, C63_documents for documents, C63_refused for entries without reference, C63_newer for versions from 50 on. C63_crossed is a finding: written before 50 and read from 50 on, exclusive areas are lost silently."
  },
  {
   "property": "C64",
   "status": "proved",
   "theorems": [
    "Verif.Props.CodecConstant.C64_constant",
    "Verif.Props.CodecConstant.C64_refused",
    "Verif.Props.CodecConstant.C64_findings"
   ],
   "note": "C64_constant for data that is accepted, C64_refused for the rest. Without further keyword arguments. Data with bools is excluded: C64_findings shows that it is written as text that cannot be read. Texts must be writable (not empty, nothing to escape), as in C21."
  },
  {
   "property": "C65",
   "status": "proved",
   "theorems": [
    "Verif.Props.CodecScaling.C65_limits",
    "Verif.Props.CodecScaling.C65_numbers",
    "Verif.Props.CodecScaling.C65_physical",
    "Verif.Props.CodecScaling.C65_internal",
    "Verif.Props.CodecScaling.C65_rational",
    "Verif.Props.CodecScaling.C65_table"
   ],
   "note": "C65_limits for everything with limits, C65_physical and C65_internal for made constraints, C65_rational for conversions, C65_table for value tables, C65_numbers for what the numbers compared stand for. Without further keyword arguments; limits of scales are numbers (texts as limits are not modelled); factors that are ints above 2^53, which float rounds, are excluded. Texts and numbers must be writable, as in C24."
  },
  {
   "property": "C66",
   "status": "proved",
   "theorems": [
    "Verif.Props.CodecTypeHeader.C66_reload",
    "Verif.Props.CodecTypeHeader.C66_references"
   ],
   "note": "C66_reload (same header, same outcome of every request, for the documents of C63) and C66_references (types found by any text lead back to themselves; with it C56_documents_partial states C56 for documents saved and loaded). Requests by reference; printing of C lines by the cfile library is not modelled."
  },
  {
   "property": "C67",
   "status": "proved",
   "theorems": [
    "Verif.Props.CodecConnect.C67_reload",
    "Verif.Props.CodecConnect.C67_saved",
    "Verif.Props.CodecConnect.C67_made"
   ],
   "note": "C67_saved (what a returned connector is, where it is put, and that its references lead to the ports and components after writing and reading), C67_made (converse), C67_reload (same outcome of every call in the document read). Parts of one component found by name must have different names (the code does not enforce it for ports and components). The connector's own parent (not set for delegation and pass-through connectors, C33) is not part of it."
  },
  {
   "property": "C68",
   "status": "partial",
   "theorems": [
    "Verif.Props.CodecEvent.C68_saved_partial",
    "Verif.Props.CodecEvent.C68_reload",
    "Verif.Props.CodecEvent.C68_possible",
    "Verif.Props.CodecEvent.C68_loaded_finding"
   ],
   "note": "C68_saved_partial (what a returned event is, where it is put, and that the document with it is written and read back), C68_possible (converse), C68_reload (same outcome of every call in the document read), C68_loaded_finding (behaviours that do not know their component, as after loading). Missing, as in C55: texts with more than one slash (the rest is ignored) and names with characters special in regular expressions. Only application components are covered, as elsewhere."
  },
  {
   "property": "C69",
   "status": "proved",
   "theorems": [
    "Verif.Props.CodecHistory.C69_sessions",
    "Verif.Props.CodecHistory.C69_kept",
    "Verif.Props.CodecHistory.C69_calls",
    "Verif.Props.CodecHistory.C69_added"
   ],
   "note": "Histories of append (documents, packages), append* methods of elements and create_connector, with saves at any points: same outcomes, same document, nothing lost. Items given are fresh objects."
  },
  {
   "property": "C70",
   "status": "proved",
   "theorems": [
    "Verif.Props.CodecSelect.C70_packages",
    "Verif.Props.CodecSelect.C70_components",
    "Verif.Props.CodecSelect.C70_whole",
    "Verif.Props.CodecSelect.C70_reload",
    "Verif.Props.CodecSelect.C70_ports",
    "Verif.Props.CodecSelect.C70_named"
   ],
   "note": "Generators as suspended loops over lists that grow; patterns are predicates on names (re is not modelled)."
  },
  {
   "property": "C71",
   "status": "proved",
   "theorems": [
    "Verif.Props.CodecMake.C71_made",
    "Verif.Props.CodecMake.C71_there",
    "Verif.Props.CodecMake.C71_refused",
    "Verif.Props.CodecMake.C71_slashes",
    "Verif.Props.CodecMake.C71_any",
    "Verif.Props.CodecMake.C71_reload"
   ],
   "note": "Packages as values, one reference per call; C05 has the same methods on objects with identity and several references."
  },
  {
   "property": "C72",
   "status": "partial",
   "theorems": [
    "Verif.Props.CodecPortSpec.C72_specs_partial",
    "Verif.Props.CodecPortSpec.C72_found",
    "Verif.Props.CodecPortSpec.C72_reload",
    "Verif.Props.CodecPortSpec.C72_loaded_finding"
   ],
   "note": "C72_specs_partial (what is made), C72_found (references), C72_reload (same outcomes in the document read), C72_loaded_finding. Missing: interfaces that repeat a name, for which it is false (C34_findings), and for the outcomes after loading interfaces with mode groups made with create_mode_group, for which it is false: after loading the group does not know its interface and the call raises AssertionError (C72_loaded_finding). What the constructors of the specifications accept is a parameter."
  },
  {
   "property": "C73",
   "status": "partial",
   "theorems": [
    "Verif.Props.CodecAccess.C73_points",
    "Verif.Props.CodecAccess.C73_documented",
    "Verif.Props.CodecAccess.C73_parameter",
    "Verif.Props.CodecAccess.C73_mode_default",
    "Verif.Props.CodecAccess.C73_rejected",
    "Verif.Props.CodecAccess.C73_one_by_one",
    "Verif.Props.CodecAccess.C73_reload",
    "Verif.Props.CodecAccess.C73_loaded_finding"
   ],
   "note": "C73_points (only what is asked for), C73_documented, C73_parameter, C73_mode_default (all that is documented), C73_rejected (malformed texts), C73_one_by_one (several texts), C73_reload (same in the document read), C73_loaded_finding. Missing: that objects know after loading what they knew before is a hypothesis of C73_reload, and false of the code: after loading the behaviour does not know its component, and the call raises RuntimeError (C73_loaded_finding). Renaming of points that are already there is left out, as in C35."
  }
 ]
}