import Verif.Props.CodecAccess
import Verif.Props.CodecAppend
import Verif.Props.CodecBehavior
import Verif.Props.CodecCompu
import Verif.Props.CodecConnect
import Verif.Props.CodecConstant
import Verif.Props.CodecCreate
import Verif.Props.CodecDoc
import Verif.Props.CodecEvent
import Verif.Props.CodecFind
import Verif.Props.CodecHistory
import Verif.Props.CodecImpl
import Verif.Props.CodecInterface
import Verif.Props.CodecLoad
import Verif.Props.CodecMake
import Verif.Props.CodecMap
import Verif.Props.CodecNum
import Verif.Props.CodecOlder
import Verif.Props.CodecOrder
import Verif.Props.CodecOwner
import Verif.Props.CodecPackage
import Verif.Props.CodecPort
import Verif.Props.CodecPortSpec
import Verif.Props.CodecReject
import Verif.Props.CodecRename
import Verif.Props.CodecScaling
import Verif.Props.CodecSelect
import Verif.Props.CodecSwc
import Verif.Props.CodecTidy
import Verif.Props.CodecTypeHeader
import Verif.Props.CodecTypes
import Verif.Props.CodecValue
import Verif.Props.Enums
import Verif.Props.Impl
import Verif.Props.ImplHeader
import Verif.Props.Names
import Verif.Props.Num
import Verif.Props.Pkg
import Verif.Props.Ref
import Verif.Props.RefEnum
import Verif.Props.SwcAccess
import Verif.Props.SwcBehavior
import Verif.Props.SwcComSpec
import Verif.Props.SwcConnect
import Verif.Props.SwcEvent
import Verif.Props.Value
import Verif.Props.WorkConfig
import Verif.Props.WorkDocs
import Verif.Props.WorkMap
import Verif.Props.WorkPath
import Verif.Props.WorkTemplate
import Verif.Props.Xml
/-
Axioms each property theorem depends on (printed at build time).
-/
#print axioms Verif.Props.Pkg.C01_sibling_names_unique
#print axioms Verif.Props.Pkg.C02_rejected_append_unchanged
#print axioms Verif.Props.Pkg.C02_duplicate_append_raises
#print axioms Verif.Props.Pkg.C02_fresh_append_accepted
#print axioms Verif.Props.Pkg.C02_other_items
#print axioms Verif.Props.Pkg.C03_find_ref
#print axioms Verif.Props.Pkg.C03_find_ref_member
#print axioms Verif.Props.Pkg.C03_empty_name_counterexample
#print axioms Verif.Props.Pkg.C03_mode_transition_ref_diverges
#print axioms Verif.Props.Pkg.C04_ref_none_iff_detached
#print axioms Verif.Props.Pkg.C04_ref_deterministic
#print axioms Verif.Props.Pkg.C04_refs_distinct
#print axioms Verif.Props.Pkg.C05_collection_make_packages
#print axioms Verif.Props.Pkg.C05_collection_make_many
#print axioms Verif.Props.Pkg.C05_package_make_packages
#print axioms Verif.Props.Pkg.C05_make_packages_outcome
#print axioms Verif.Props.Pkg.C05_make_packages_failure_frame
#print axioms Verif.Props.Pkg.C05_failure_not_atomic
#print axioms Verif.Props.Pkg.C06_duplicate_create_does_not_raise
#print axioms Verif.Props.Pkg.C06_create_package_partial
#print axioms Verif.Props.Pkg.C07_segmentation
#print axioms Verif.Props.Pkg.C07_find_contained
#print axioms Verif.Props.Pkg.C07_find_exact_partial
#print axioms Verif.Props.Pkg.C07_find_item_sound
#print axioms Verif.Props.Pkg.C07_below_element_counterexample
#print axioms Verif.Props.Pkg.C07_find_below_element
#print axioms Verif.Props.Ref.C08_dest_accepted
#print axioms Verif.Props.Ref.C08_single_default
#print axioms Verif.Props.Ref.C08_several_need_dest
#print axioms Verif.Props.Ref.C08_given_dest
#print axioms Verif.Props.Ref.C08_port_sides
#print axioms Verif.Props.Ref.C08_dests_writable
#print axioms Verif.Props.Ref.C09_compatible_accepted
#print axioms Verif.Props.Ref.C09_incompatible_rejected
#print axioms Verif.Props.Ref.C09_history
#print axioms Verif.Props.Names.C10_fresh_partial
#print axioms Verif.Props.Names.C10_effect_partial
#print axioms Verif.Props.Names.C10_regex_counterexample
#print axioms Verif.Props.Names.C11_unique_partial
#print axioms Verif.Props.Names.C11_step_exact
#print axioms Verif.Props.Names.C11_counterexample
#print axioms Verif.Props.CodecRename.C12_reload_counterexample
#print axioms Verif.Props.Names.C12_step_exact
#print axioms Verif.Props.Names.C12_distinct_partial
#print axioms Verif.Props.Names.C12_third_append_collides
#print axioms Verif.Props.Names.C12_counterexample
#print axioms Verif.Props.Num.C13_interval_partial
#print axioms Verif.Props.Num.C13_nan_accepted
#print axioms Verif.Props.Num.C13_nan_limit_ignored
#print axioms Verif.Props.Num.C13_absent_limit_raises
#print axioms Verif.Props.Num.C14_scales
#print axioms Verif.Props.Num.C14_rejects
#print axioms Verif.Props.Num.C14_strings
#print axioms Verif.Props.Value.C15_builds
#print axioms Verif.Props.Value.C15_rejects
#print axioms Verif.Props.Value.C15_definite
#print axioms Verif.Props.Value.C15_expressive
#print axioms Verif.Props.Value.C15_init_value
#print axioms Verif.Props.Enums.C16_write_read
#print axioms Verif.Props.Enums.C16_texts_distinct
#print axioms Verif.Props.Enums.C16_total_at_default
#print axioms Verif.Props.Enums.C16_read_write
#print axioms Verif.Props.Enums.C16_no_xml
#print axioms Verif.Props.Enums.C16_version_error
#print axioms Verif.Props.Xml.C17_balanced
#print axioms Verif.Props.Xml.C17_nested
#print axioms Verif.Props.Xml.C17_lines
#print axioms Verif.Props.Xml.C17_parses
#print axioms Verif.Props.Xml.C17_document_parses
#print axioms Verif.Props.Xml.C18_exact_partial
#print axioms Verif.Props.Xml.C18_counterexample
#print axioms Verif.Props.Xml.C18_attribute_counterexample
#print axioms Verif.Props.Num.C19_decimal
#print axioms Verif.Props.Num.C19_notation_partial
#print axioms Verif.Props.Num.C19_decimal_notation
#print axioms Verif.Props.Num.C19_negative_counterexample
#print axioms Verif.Props.Num.C19_negative_text
#print axioms Verif.Props.Num.C19_scientific_counterexample
#print axioms Verif.Props.Num.C20_value_kept_partial
#print axioms Verif.Props.Num.C20_fractional_exact
#print axioms Verif.Props.Num.C20_integral_plain
#print axioms Verif.Props.Num.C20_special
#print axioms Verif.Props.Num.C20_fails_iff
#print axioms Verif.Props.Num.C20_counterexample
#print axioms Verif.Props.CodecValue.C21_survives
#print axioms Verif.Props.CodecValue.C21_constants
#print axioms Verif.Props.CodecValue.C21_findings
#print axioms Verif.Props.CodecPackage.C22_documents
#print axioms Verif.Props.CodecRename.C22_names
#print axioms Verif.Props.CodecRename.C22_renamed
#print axioms Verif.Props.CodecTypes.C23_survives_partial
#print axioms Verif.Props.CodecTypes.C23_findings
#print axioms Verif.Props.CodecCompu.C24_survives_partial
#print axioms Verif.Props.CodecCompu.C24_findings
#print axioms Verif.Props.CodecDoc.C25_intact_partial
#print axioms Verif.Props.CodecDoc.C25_text_parts
#print axioms Verif.Props.CodecDoc.C25_texts
#print axioms Verif.Props.CodecDoc.C25_unit_names
#print axioms Verif.Props.CodecDoc.C25_findings
#print axioms Verif.Props.CodecPackage.C26_keeps_first
#print axioms Verif.Props.CodecPackage.C26_stops
#print axioms Verif.Props.CodecPackage.C26_outcome
#print axioms Verif.Props.CodecPackage.C26_any_children
#print axioms Verif.Props.CodecPackage.C26_any_repetition
#print axioms Verif.Props.CodecPackage.C26_subpackages
#print axioms Verif.Props.CodecPackage.C26_root_packages
#print axioms Verif.Props.WorkTemplate.C27_create_once
#print axioms Verif.Props.WorkTemplate.C27_same_element
#print axioms Verif.Props.WorkTemplate.C27_dependency_there
#print axioms Verif.Props.WorkTemplate.C27_found_at_ref
#print axioms Verif.Props.WorkTemplate.C27_dependencies_first
#print axioms Verif.Props.WorkTemplate.C27_counterexample
#print axioms Verif.Props.WorkTemplate.C27_errors
#print axioms Verif.Props.WorkPath.C28_role_reference
#print axioms Verif.Props.WorkPath.C28_absolute_path
#print axioms Verif.Props.WorkPath.C28_place_unique
#print axioms Verif.Props.WorkPath.C28_errors
#print axioms Verif.Props.WorkPath.C28_counterexample
#print axioms Verif.Props.WorkDocs.C29_found_as_before
#print axioms Verif.Props.WorkDocs.C29_found_from_workspace
#print axioms Verif.Props.WorkDocs.C29_references_kept_partial
#print axioms Verif.Props.WorkDocs.C29_second_write_raises
#print axioms Verif.Props.WorkDocs.C29_counterexample
#print axioms Verif.Props.WorkDocs.C30_mapping
#print axioms Verif.Props.WorkDocs.C30_content_unique
#print axioms Verif.Props.WorkDocs.C30_no_package
#print axioms Verif.Props.WorkDocs.C30_counterexample
#print axioms Verif.Props.Impl.C31_defined_before_use
#print axioms Verif.Props.Impl.C31_each_once
#print axioms Verif.Props.Impl.C31_order_exists
#print axioms Verif.Props.Impl.C31_late_source_counterexample
#print axioms Verif.Props.Impl.C32_same_object
#print axioms Verif.Props.Impl.C32_one_per_reference
#print axioms Verif.Props.Impl.C32_right_object
#print axioms Verif.Props.Impl.C32_detached_counterexample
#print axioms Verif.Props.SwcConnect.C33_kind
#print axioms Verif.Props.SwcConnect.C33_created
#print axioms Verif.Props.SwcConnect.C33_same_direction_rejected
#print axioms Verif.Props.SwcConnect.C33_unknown_port_rejected
#print axioms Verif.Props.SwcConnect.C33_refused_unchanged
#print axioms Verif.Props.SwcConnect.C33_direction_partial
#print axioms Verif.Props.SwcConnect.C33_names_distinct
#print axioms Verif.Props.SwcConnect.C33_counterexample
#print axioms Verif.Props.SwcComSpec.C34_specs_partial
#print axioms Verif.Props.SwcComSpec.C34_unknown_rejected
#print axioms Verif.Props.SwcComSpec.C34_succeeds
#print axioms Verif.Props.SwcComSpec.C34_single
#print axioms Verif.Props.SwcComSpec.C34_empty
#print axioms Verif.Props.SwcComSpec.C34_port
#print axioms Verif.Props.SwcComSpec.C34_port_refused_unchanged
#print axioms Verif.Props.SwcComSpec.C34_port_list
#print axioms Verif.Props.SwcComSpec.C34_pr_port
#print axioms Verif.Props.SwcComSpec.C34_pr_port_single
#print axioms Verif.Props.SwcComSpec.C34_findings
#print axioms Verif.Props.SwcAccess.C35_parse
#print axioms Verif.Props.SwcAccess.C35_any_case
#print axioms Verif.Props.SwcAccess.C35_unambiguous
#print axioms Verif.Props.SwcAccess.C35_documented
#print axioms Verif.Props.SwcAccess.C35_points_partial
#print axioms Verif.Props.SwcAccess.C35_malformed_rejected
#print axioms Verif.Props.SwcAccess.C35_mode_default
#print axioms Verif.Props.SwcAccess.C35_parameter
#print axioms Verif.Props.SwcAccess.C35_findings
#print axioms Verif.Props.SwcBehavior.C36_all_or_nothing
#print axioms Verif.Props.SwcBehavior.C36_unknown_rejected
#print axioms Verif.Props.SwcBehavior.C36_exactly_named
#print axioms Verif.Props.SwcBehavior.C36_findings
#print axioms Verif.Props.SwcBehavior.C37_star
#print axioms Verif.Props.SwcBehavior.C37_names
#print axioms Verif.Props.SwcBehavior.C37_findings
#print axioms Verif.Props.Ref.C38_split_join
#print axioms Verif.Props.Ref.C38_join_split
#print axioms Verif.Props.Ref.C38_split_total
#print axioms Verif.Props.Ref.C38_split_empty
#print axioms Verif.Props.Ref.C38_strict
#print axioms Verif.Props.Ref.C39_last_write_partial
#print axioms Verif.Props.Ref.C39_reject_partial
#print axioms Verif.Props.Ref.C39_update_outcome_partial
#print axioms Verif.Props.Ref.C39_method_name_accepted
#print axioms Verif.Props.Ref.C39_unknown_rejected_false
#print axioms Verif.Props.Num.C40_texts
#print axioms Verif.Props.Num.C40_decimal_texts
#print axioms Verif.Props.Ref.C40_history
#print axioms Verif.Props.Ref.C40_decision
#print axioms Verif.Props.Ref.C40_form_history
#print axioms Verif.Props.Ref.C40_form_decision
#print axioms Verif.Props.RefEnum.C40_enum_history
#print axioms Verif.Props.RefEnum.C40_enum_decision
#print axioms Verif.Props.WorkDocs.C41_documents_contents
#print axioms Verif.Props.CodecInterface.C42_survives
#print axioms Verif.Props.CodecInterface.C42_service_kind
#print axioms Verif.Props.CodecInterface.C42_findings
#print axioms Verif.Props.CodecPort.C43_survives
#print axioms Verif.Props.CodecSwc.C44_survives
#print axioms Verif.Props.CodecBehavior.C45_survives
#print axioms Verif.Props.CodecRename.C45_names
#print axioms Verif.Props.CodecRename.C45_renamed
#print axioms Verif.Props.CodecImpl.C46_survives
#print axioms Verif.Props.CodecPackage.C47_file_partial
#print axioms Verif.Props.CodecPackage.C47_str_counterexample
#print axioms Verif.Props.CodecPackage.C47_unversioned
#print axioms Verif.Props.CodecPackage.C47_schema_file
#print axioms Verif.Props.CodecOrder.C48_element_trees
#print axioms Verif.Props.CodecOrder.C48_elements
#print axioms Verif.Props.CodecOrder.C48_document_trees
#print axioms Verif.Props.CodecOrder.C48_documents
#print axioms Verif.Props.CodecOrder.C48_swap
#print axioms Verif.Props.CodecOrder.C48_unknown
#print axioms Verif.Props.CodecOrder.C48_repeated
#print axioms Verif.Props.CodecOrder.C48_white_space
#print axioms Verif.Props.CodecLoad.C49_well_formed
#print axioms Verif.Props.CodecLoad.C49_elements
#print axioms Verif.Props.CodecLoad.C49_documents_well_formed
#print axioms Verif.Props.CodecLoad.C49_documents
#print axioms Verif.Props.CodecLoad.C49_stable
#print axioms Verif.Props.CodecLoad.C49_counterexample
#print axioms Verif.Props.CodecReject.C50_readable_partial
#print axioms Verif.Props.CodecReject.C50_errors
#print axioms Verif.Props.CodecReject.C50_counterexample
#print axioms Verif.Props.CodecReject.C50_identifiable
#print axioms Verif.Props.CodecTidy.C51_left_out_partial
#print axioms Verif.Props.CodecTidy.C51_kept
#print axioms Verif.Props.CodecTidy.C51_counterexample
#print axioms Verif.Props.CodecTidy.C51_introduction
#print axioms Verif.Props.CodecReject.C52_ignored
#print axioms Verif.Props.CodecReject.C52_unreadable
#print axioms Verif.Props.CodecNum.C53_value_partial
#print axioms Verif.Props.CodecNum.C53_integers_partial
#print axioms Verif.Props.CodecNum.C53_same_partial
#print axioms Verif.Props.CodecNum.C53_counterexample
#print axioms Verif.Props.CodecNum.C53_octal_counterexample
#print axioms Verif.Props.CodecNum.C53_octal_unreadable
#print axioms Verif.Props.CodecMap.C54_says_partial
#print axioms Verif.Props.CodecMap.C54_text_partial
#print axioms Verif.Props.CodecMap.C54_files_partial
#print axioms Verif.Props.CodecMap.C54_written_partial
#print axioms Verif.Props.CodecMap.C54_counterexample
#print axioms Verif.Props.SwcEvent.C55_created_partial
#print axioms Verif.Props.SwcEvent.C55_possible
#print axioms Verif.Props.SwcEvent.C55_failed_partial
#print axioms Verif.Props.SwcEvent.C55_distinct_partial
#print axioms Verif.Props.SwcEvent.C55_failed_counterexample
#print axioms Verif.Props.SwcEvent.C55_rest_ignored
#print axioms Verif.Props.SwcEvent.C55_transition_finding
#print axioms Verif.Props.SwcEvent.C55_loaded_finding
#print axioms Verif.Props.SwcEvent.C55_group_finding
#print axioms Verif.Props.CodecTypeHeader.C56_documents_partial
#print axioms Verif.Props.ImplHeader.C56_types_partial
#print axioms Verif.Props.ImplHeader.C56_include
#print axioms Verif.Props.ImplHeader.C56_c_counterexample
#print axioms Verif.Props.ImplHeader.C56_generated
#print axioms Verif.Props.ImplHeader.C56_names_counterexample
#print axioms Verif.Props.ImplHeader.C56_emitter_counterexample
#print axioms Verif.Props.ImplHeader.C56_symbol_counterexample
#print axioms Verif.Props.CodecOwner.C57_ref_partial
#print axioms Verif.Props.CodecOwner.C57_none
#print axioms Verif.Props.CodecOwner.C57_only
#print axioms Verif.Props.CodecOwner.C57_apart_partial
#print axioms Verif.Props.CodecOwner.C57_built
#print axioms Verif.Props.CodecOwner.C57_behavior_counterexample
#print axioms Verif.Props.CodecOwner.C57_apart_counterexample
#print axioms Verif.Props.WorkMap.C58_get
#print axioms Verif.Props.WorkMap.C58_unknown
#print axioms Verif.Props.WorkMap.C58_add
#print axioms Verif.Props.WorkMap.C58_find
#print axioms Verif.Props.WorkMap.C58_same
#print axioms Verif.Props.WorkMap.C58_apart
#print axioms Verif.Props.WorkMap.C58_failure
#print axioms Verif.Props.WorkMap.C58_finding
#print axioms Verif.Props.WorkConfig.C59_calls
#print axioms Verif.Props.WorkConfig.C59_loads
#print axioms Verif.Props.WorkConfig.C59_effect
#print axioms Verif.Props.WorkConfig.C59_accepted_partial
#print axioms Verif.Props.WorkConfig.C59_findings
#print axioms Verif.Props.CodecAppend.C60_same
#print axioms Verif.Props.CodecAppend.C60_refused
#print axioms Verif.Props.CodecFind.C61_reload
#print axioms Verif.Props.CodecFind.C61_way
#print axioms Verif.Props.CodecFind.C61_ref
#print axioms Verif.Props.CodecFind.C61_findings
#print axioms Verif.Props.CodecCreate.C62_created
#print axioms Verif.Props.CodecCreate.C62_refused
#print axioms Verif.Props.CodecCreate.C62_prototype
#print axioms Verif.Props.CodecCreate.C62_behavior
#print axioms Verif.Props.CodecCreate.C62_error_ref
#print axioms Verif.Props.CodecCreate.C62_policy
#print axioms Verif.Props.CodecOlder.C63_elements
#print axioms Verif.Props.CodecOlder.C63_documents
#print axioms Verif.Props.CodecOlder.C63_newer
#print axioms Verif.Props.CodecOlder.C63_refused
#print axioms Verif.Props.CodecOlder.C63_crossed
#print axioms Verif.Props.CodecConstant.C64_constant
#print axioms Verif.Props.CodecConstant.C64_refused
#print axioms Verif.Props.CodecConstant.C64_findings
#print axioms Verif.Props.CodecScaling.C65_limits
#print axioms Verif.Props.CodecScaling.C65_numbers
#print axioms Verif.Props.CodecScaling.C65_physical
#print axioms Verif.Props.CodecScaling.C65_internal
#print axioms Verif.Props.CodecScaling.C65_rational
#print axioms Verif.Props.CodecScaling.C65_table
#print axioms Verif.Props.CodecTypeHeader.C66_reload
#print axioms Verif.Props.CodecTypeHeader.C66_references
#print axioms Verif.Props.CodecConnect.C67_reload
#print axioms Verif.Props.CodecConnect.C67_saved
#print axioms Verif.Props.CodecConnect.C67_made
#print axioms Verif.Props.CodecEvent.C68_saved_partial
#print axioms Verif.Props.CodecEvent.C68_reload
#print axioms Verif.Props.CodecEvent.C68_possible
#print axioms Verif.Props.CodecEvent.C68_loaded_finding
#print axioms Verif.Props.CodecHistory.C69_sessions
#print axioms Verif.Props.CodecHistory.C69_kept
#print axioms Verif.Props.CodecHistory.C69_calls
#print axioms Verif.Props.CodecHistory.C69_added
#print axioms Verif.Props.CodecSelect.C70_packages
#print axioms Verif.Props.CodecSelect.C70_components
#print axioms Verif.Props.CodecSelect.C70_whole
#print axioms Verif.Props.CodecSelect.C70_reload
#print axioms Verif.Props.CodecSelect.C70_ports
#print axioms Verif.Props.CodecSelect.C70_named
#print axioms Verif.Props.CodecMake.C71_made
#print axioms Verif.Props.CodecMake.C71_there
#print axioms Verif.Props.CodecMake.C71_refused
#print axioms Verif.Props.CodecMake.C71_slashes
#print axioms Verif.Props.CodecMake.C71_any
#print axioms Verif.Props.CodecMake.C71_reload
#print axioms Verif.Props.CodecPortSpec.C72_specs_partial
#print axioms Verif.Props.CodecPortSpec.C72_found
#print axioms Verif.Props.CodecPortSpec.C72_reload
#print axioms Verif.Props.CodecPortSpec.C72_loaded_finding
#print axioms Verif.Props.CodecAccess.C73_points
#print axioms Verif.Props.CodecAccess.C73_documented
#print axioms Verif.Props.CodecAccess.C73_parameter
#print axioms Verif.Props.CodecAccess.C73_mode_default
#print axioms Verif.Props.CodecAccess.C73_rejected
#print axioms Verif.Props.CodecAccess.C73_one_by_one
#print axioms Verif.Props.CodecAccess.C73_reload
#print axioms Verif.Props.CodecAccess.C73_loaded_finding
