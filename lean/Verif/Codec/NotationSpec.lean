import Verif.Codec.MapSpec
import Verif.Num.NotationSpec
/-
Which attributes take whole numbers in all notations (C53).
-/
namespace Verif.Codec.Notation
open Verif.Num Verif.Codec Verif.Codec.Spec

/-- The number in a value, if it is one. -/
def numberIn : Val Cls → Option PyNum
  | .num n => some n
  | .numval n => some n.value
  | .limit n _ => some n
  | _ => none

/-- It is this whole number, as int or as float. -/
def IsWhole (x : PyNum) (n : Int) : Prop := x = .int n ∨ x = .float (toFloat (.int n))

/-- Whole numbers that may be decimal, hexadecimal or binary: class, attribute, tag. -/
def integerParts : List (Cls × String × String) :=
  [(.DataFilter, "mask", "MASK"), (.DataFilter, "max_val", "MAX"),
   (.DataFilter, "min_val", "MIN"), (.DataFilter, "offset", "OFFSET"),
   (.DataFilter, "period", "PERIOD"), (.DataFilter, "x", "X"),
   (.SwBaseType, "size", "BASE-TYPE-SIZE"), (.SwBaseType, "max_size", "MAX-BASE-TYPE-SIZE"),
   (.SwBaseType, "alignment", "MEM-ALIGNMENT"),
   (.SwTextProps, "max_text_size", "SW-MAX-TEXT-SIZE"),
   (.SwTextProps, "fill_char", "SW-FILL-CHARACTER"),
   (.NotAvailableValueSpecification, "default_pattern", "DEFAULT-PATTERN"),
   (.ModeDeclaration, "value", "VALUE"),
   (.ModeDeclarationGroup, "on_transition_value", "ON-TRANSITION-VALUE"),
   (.ApplicationError, "error_code", "ERROR-CODE"),
   (.EndToEndTransformationComSpecProps, "max_delta_counter", "MAX-DELTA-COUNTER"),
   (.EndToEndTransformationComSpecProps, "max_error_state_init", "MAX-ERROR-STATE-INIT"),
   (.EndToEndTransformationComSpecProps, "max_error_state_invalid", "MAX-ERROR-STATE-INVALID"),
   (.EndToEndTransformationComSpecProps, "max_error_state_valid", "MAX-ERROR-STATE-VALID"),
   (.EndToEndTransformationComSpecProps, "max_no_new_repeated_data", "MAX-NO-NEW-OR-REPEATED-DATA"),
   (.EndToEndTransformationComSpecProps, "min_ok_state_init", "MIN-OK-STATE-INIT"),
   (.EndToEndTransformationComSpecProps, "min_ok_state_invalid", "MIN-OK-STATE-INVALID"),
   (.EndToEndTransformationComSpecProps, "min_ok_state_valid", "MIN-OK-STATE-VALID"),
   (.EndToEndTransformationComSpecProps, "sync_counter_init", "SYNC-COUNTER-INIT"),
   (.EndToEndTransformationComSpecProps, "window_size", "WINDOW-SIZE"),
   (.EndToEndTransformationComSpecProps, "window_size_init", "WINDOW-SIZE-INIT"),
   (.EndToEndTransformationComSpecProps, "window_size_invalid", "WINDOW-SIZE-INVALID"),
   (.EndToEndTransformationComSpecProps, "window_size_valid", "WINDOW-SIZE-VALID"),
   (.ModeSwitchSenderComSpec, "queue_length", "QUEUE-LENGTH"),
   (.ServerComSpec, "queue_length", "QUEUE-LENGTH"),
   (.QueuedReceiverComSpec, "max_delta_counter_init", "MAX-DELTA-COUNTER-INIT"),
   (.QueuedReceiverComSpec, "max_no_new_repeated_data", "MAX-NO-NEW-OR-REPEATED-DATA"),
   (.QueuedReceiverComSpec, "sync_counter_init", "SYNC-COUNTER-INIT"),
   (.QueuedReceiverComSpec, "queue_length", "QUEUE-LENGTH"),
   (.NonqueuedReceiverComSpec, "max_delta_counter_init", "MAX-DELTA-COUNTER-INIT"),
   (.NonqueuedReceiverComSpec, "max_no_new_repeated_data", "MAX-NO-NEW-OR-REPEATED-DATA"),
   (.NonqueuedReceiverComSpec, "sync_counter_init", "SYNC-COUNTER-INIT"),
   (.ExecutableEntityActivationReason, "bit_position", "BIT-POSITION")]

/-- Numbers that may be decimal only: class, attribute, tag.  (In the AUTOSAR schema they are
integers, positive integers, numerical values or limit values, which have all notations.) -/
def plainParts : List (Cls × String × String) :=
  [(.DataConstraintRule, "level", "CONSTR-LEVEL"),
   (.InternalConstraint, "lower_limit", "LOWER-LIMIT"),
   (.InternalConstraint, "upper_limit", "UPPER-LIMIT"),
   (.InternalConstraint, "max_gradient", "MAX-GRADIENT"),
   (.InternalConstraint, "max_diff", "MAX-DIFF"),
   (.PhysicalConstraint, "lower_limit", "LOWER-LIMIT"),
   (.PhysicalConstraint, "upper_limit", "UPPER-LIMIT"),
   (.PhysicalConstraint, "max_gradient", "MAX-GRADIENT"),
   (.PhysicalConstraint, "max_diff", "MAX-DIFF"),
   (.ScaleConstraint, "lower_limit", "LOWER-LIMIT"),
   (.ScaleConstraint, "upper_limit", "UPPER-LIMIT"),
   (.SwBitRepresentation, "position", "BIT-POSITION"),
   (.SwBitRepresentation, "num_bits", "NUMBER-OF-BITS"),
   (.SwDataDefPropsConditional, "intended_resolution", "SW-INTENDED-RESOLUTION"),
   (.ImplementationDataTypeElement, "array_size", "ARRAY-SIZE"),
   (.ApplicationArrayElement, "max_number_of_elements", "MAX-NUMBER-OF-ELEMENTS"),
   (.NumericalValueSpecification, "value", "VALUE"), (.CompuScale, "mask", "MASK"),
   (.CompuScale, "lower_limit", "LOWER-LIMIT"), (.CompuScale, "upper_limit", "UPPER-LIMIT")]

end Verif.Codec.Notation
