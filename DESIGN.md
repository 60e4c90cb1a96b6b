# Formal model of cogu/autosar – design

The repository (`/repo/src/autosar`, Python) builds, stores, reads and writes
AUTOSAR XML (ARXML).  It is read as text only; nothing is executed.  The model
is Lean 4 (core library only, no Mathlib import so far), under `lean/Verif/`.

## Layout

| module | models | property theorems in |
|---|---|---|
| `Verif/Py.lean` | exceptions as values, the Python string/list/dict operations the code uses | – |
| `Verif/Ref/*` | `base.py`, `xml/base.py` (BaseRef, `_assign*`), `xml/reference.py` | `Props/Ref.lean`, `Props/RefEnum.lean` (C08, C09, C38–C40) |
| `Verif/Pkg/*` | `Package`, `PackageCollection`, `ref()`/`find`, object identity and parents | `Props/Pkg.lean` (C01–C07) |
| `Verif/Names/*` | `make_unique_name_in_list`, event and access-point lists | `Props/Names.lean` (C10–C12) |
| `Verif/Num/*` | limits, value tables, integer/float text forms | `Props/Num.lean` (C13, C14, C19, C20) |
| `Verif/Value/*` | `ValueSpecification.make_value` | `Props/Value.lean` (C15) |
| `Verif/Enums/*` | `xml/enumeration.py` (tables transcribed mechanically from the source text) | `Props/Enums.lean` (C16) |
| `Verif/Xml/*` | `_XMLWriter` text output, an XML reading specification | `Props/Xml.lean` (C17, C18) |
| `Verif/Codec/*` | `Writer._write_*` / `Reader._read_*` (all but the exceptions below), dispatch tables, packages, documents, `ref()` of elements and their parts, `append*`, `find` and most `create_*` methods | `Props/Codec*.lean` (C21–C26, C42–C54, C57, C60–C73) |
| `Verif/Work/*` | `xml/workspace.py`, `xml/template.py`, `xml/document.py` | `Props/WorkPath.lean`, `WorkTemplate.lean`, `WorkDocs.lean`, `WorkMap.lean`, `WorkConfig.lean` (C27–C30, C41, C58, C59) |
| `Verif/Impl/*` | `model/*.py`, `generator/type_generator.py` | `Props/Impl.lean`, `ImplHeader.lean` (C31, C32, C56) |
| `Verif/Swc/*` | ports, com-specs, connectors, runnables, access points, port API options, events | `Props/SwcConnect.lean`, `SwcComSpec.lean`, `SwcAccess.lean`, `SwcBehavior.lean`, `SwcEvent.lean` (C33–C37, C55) |
| `Verif/Axioms.lean` | `#print axioms` of every theorem in MANIFEST.json (generated) | – |

Property theorems live in `Verif/Props/`, separate from the model and from the
helper lemmas.  Specifications that are not part of the code (what a path is,
what an interval is, what a topological order is, what "the same object" is)
are small definitions in `Spec` namespaces or at the top of the property file,
phrased without the model's helpers.

## Conventions

* A Python call that may raise becomes a function into `Except PyErr α`
  (`PyErr` = exception class); a call that mutates objects becomes a function
  returning the new state.  When the point is that a failing call leaves a
  partial effect, the function returns the state *and* the outcome.
* Object identity matters for packages (the same package object can be appended
  in two places), so packages live in a heap: object id ↦ record with name,
  parent, children.
* Where a property is false of the code, the negation is proved with a concrete
  witness (`*_counterexample`, `*_findings`), and a `_partial` theorem states
  what does hold.  Those are listed in "Findings" below.

## Plan per property

C01, C02 – heap model of containers, `Inv` (per container: names pairwise
distinct, name map agrees with the lists) preserved by every operation, lifted
by induction over the operation list.  Rejected operations return the same heap.
C03, C04, C07 – `find` by recursion over path segments, `ref` by recursion over
the parent chain; theorem by induction on depth, given the containment/parent
agreement invariant that the operations establish for trees.
C05 – `make_packages` as recursion over segments; return value, idempotence,
frame.
C06 – negation by witness plus exact result.
C08, C09 – table of reference classes transcribed from `reference.py`;
constructor and assignment as decision functions; theorems for all classes.
C10, C11, C12 – the regular expression `base + r'_(\d+)'` with `re.match`
(prefix) semantics is modelled by a string function for bases without regex
metacharacters; freshness of the returned name; invariants over creation
histories; negations by witness.
C13, C14 – rational numbers for limits; decision theorem; list recursion.
C15 – inductive type for Python data; builder into `Except`; characterised by a
relational spec, proved by mutual induction.
C16 – finite tables, whole-domain `decide`, lifted to all versions.
C17, C18 – writer state machine over characters; a separate XML grammar/parser
spec; parse∘write = id by induction on trees; negation witness for escaping.
C19, C20 – digit lists; `int(text, 0)`; Decimal as sign/coefficient/exponent.
C21–C25, C42–C46 – see "Codec" below.
C22, C26, C47 – package trees on top of the codec, by induction over the tree
and the list of elements; the schema version through the text of the root
element's attributes.
C48 – a relation between parsed files (`OrderSpec.lean`), by induction over it;
that no reader method is used on an element it does not fit is a check of the
reader's tables (`OrderCheck.lean`).
C49 – everything a reader method returns has the right types, by induction over
the parsed file, given static checks of the reader's tables against the
constructors (`LoadCheck.lean`); then the round trip applies to what was read,
and what it leaves is a fixed point.
C50 – static checks of what the reader methods pass to the constructors
(`Reject.lean`), then one case distinction for all methods.
C51 – induction over the tree of packages of the parsed file: dropping the
elements that are left out commutes with reading, and a raised exception that
is not caught propagates to the top (`Tidy.lean`).
C52 – all statements of a reader method other than the one for `ADMIN-DATA` are
blind to it (static check, `Admin.lean`).
C53 – a relation between texts and numbers (`Num/NotationSpec.lean`) by induction
on the digits; which attributes are read by `_read_integer` and which by
`_read_number` is listed in `Codec/NotationSpec.lean` and checked against the
reader's tables; the general part follows from C54.
C54 – a table of places, one row per class and attribute, taken from the comments
in element.py and the AUTOSAR schema (`parts`, `MapSpec.lean`), and a relation
`Says` between an element and a value built on it; static check that each
statement of each reader method fits its row, then induction over the element
(`Map.lean`).  The table is part of what has to be read to believe C54.
C57 – tables of the `ref()` methods and of the attributes whose objects learn their
parent (`Codec/Owner.lean`), checked against the names of the classes in files and
against the constructors' arguments; induction over the way from an element to a
part.
C60 – tables of the `append*` methods (`Codec/Append.lean`) and of the constructor
arguments they add to (`Codec/AppendSpec.lean`); the kernel checks for each class
that they accept the same values, then induction over the calls.
C61 – `find` on packages as values (`Codec/Find.lean`), a relation for what is at the
end of a way of names (`Codec/FindSpec.lean`); `find` commutes with what writing and
reading does to a document (C22), by induction over packages.
C62 – tables of the `create_*` methods (`Codec/Create.lean`: parameters, positional
arguments of the constructor, what is done with the object) and of what they are
for (`Codec/CreateSpec.lean`); Python's binding of arguments by position and by name;
the kernel checks for each method that names match, the rest as in C60.
C63 – the tables of methods for schema versions below 50 (`Codec/Older.lean`), to which
the round trip of C21–C26 applies as it is; the objects are mapped to what the older
format holds and back, by induction over their structure.
C64 – the value of C15 as an object of the codec (`Codec/Constant.lean`), a relation
between Python data and objects (`Codec/ConstantSpec.lean`); induction over the
description of the data, then the round trip of C21.
C65 – the made objects attribute by attribute (`Codec/Scaling.lean`); ways into an
object and what is found there (`Codec/ScalingSpec.lean`); what a way leads to is kept
by the relation of C24, by induction over ways; then C13 and C14.
C66 – what the implementation model of C31, C32 and C56 reads of the objects of the
codec (`Codec/TypeHeader.lean`): lookups, `ref()` and attributes of types; none of the
attributes read is among those that are lost (C22), by induction over packages.  The
packages are also shown to satisfy what C31, C32 and C56 assume of a workspace
(`Codec/TypeHeaderEnv.lean`), and C56 is stated again with the C types described by the
attributes of the objects of the document (`Codec/TypeHeaderSpec.lean`,
`Codec/TypeHeaderTypes.lean`).
C67 – `create_connector` of C33 with the objects of a document as its workspace and a
connector object of the codec as its result (`Codec/Connect.lean`), the change of one
element in nested packages, and a specification of what texts name and what a connector
joins (`Codec/ConnectSpec.lean`); the changed packages are well-formed again, so the round
trip of C63 and the lookups of C61 apply.
C68 – the methods of C55 with the objects of a document as component, ports, interfaces
and behaviour, and event objects of the codec as their results (`Codec/Event.lean`); what
an event is about, said with the objects of the document (`Codec/EventSpec.lean`).  What
the objects do not tell (whether a behaviour knows its component and a mode group its
interface, the settings) is a parameter.  What an exception leaves behind is not covered
here (it is in C55).
C69 – documents as states, with `append` (packages and documents), `create_connector`,
the `append*` methods of elements on what `find` returns and `make_packages` as steps, and saving and loading as another kind of step
(`Codec/History.lean`).  Simulation: the document with saves and the document without have
the same normal form (what is left when they are written), which decides all outcomes;
well-formedness is an invariant of both.  Simplification: every item given is an object
of its own, that is in no package yet (the same object in two packages is not modelled).
Calls on the objects inside elements (`append*` of a port, of a runnable) are not steps of
the histories.
C70 – generators as positions in a list that grows while they are suspended
(`Codec/Select.lean`): a state machine with calls, starts of iterations and requests for
items as steps, and for every iteration an invariant that relates its position to what it
has yielded.  `re` is not modelled: a pattern is a predicate on names.
C71 – `make_packages` on packages as values (`Codec/Make.lean`), against a relation that
says which packages may be new and what of the others is the same (`Codec/MakeSpec.lean`);
induction over the way, and over the text where it is no reference.
C72 – what the methods of C34 read of interfaces in documents (`Codec/PortSpec.lean`), among
it `is_queued`, is the same after writing and reading; what is made is stated with the
attributes of the objects (`Codec/PortSpecSpec.lean`) and follows from C34.  What the
constructors of the specifications accept remains a parameter.
C73 – the same for `create_port_access` (C35): the ports and interfaces of documents
(`Codec/Access.lean`) are what that model takes as its input; points stated with the
attributes of the objects (`Codec/AccessSpec.lean`).  As in C35, renaming of points that
are already there (`append_*`) is left out.
C27–C30, C41 – workspace state machine with a trace of create calls; path
normalisation against a segment-stack spec; list filters; the documents written
as a recorded trace.
C58 – the package map on top of the state machine of C01–C07, against its
specification of places; C59 – values of a configuration file as a datatype
(`tomllib` is not modelled), against a relation between entries and calls
(`Work/ConfigSpec.lean`).
C31, C32 – type graph as finite map with a rank (acyclicity); reversed BFS order
shown topological; memo table invariant.
C56 – a small C compiler for the lines that occur in a header (preprocessor, type
names, structure tags; `Impl/HeaderSpec.lean`) and a relation between types of
the workspace and C types; induction over the definitions in the order of C31.
C33–C37, C55 – decision functions over small records; C55 against a relation
(`Swc/EventSpec.lean`) saying what a text names in a component, with the names of
events taken from C10 and C11.
C38–C40 – string functions and small state machines.

Nothing in the list is inexpressible.

### Codec

Writer and reader are about 10 700 lines of straight-line code, made of a few
kinds of statements: 290 `_write_*` and 324 `_read_*` methods.  The model keeps
202 writer methods and 186 classes; methods that only write or read a group of
attributes of a base class, or only select another method, are included in the
methods that call them.  `Codec/Lang.lean` defines those statements (write a child if the
attribute is set, write a list below a child, read the first child of a tag
with the method of the child's tag, …), with an interpreter for each that
mirrors the Python code; `Codec/Writer.lean` and `Codec/Reader.lean` transcribe
these methods, with their line numbers, into these statements; `Codec/Schema.lean`
transcribes the constructors (parameter names, required or not, types
checked).  `Codec/Dispatch.lean` has the dispatch tables of `write_str_elem`
and `read_str_elem`.

`Codec/Check.lean` defines a decidable agreement between a writer method, a
reader method and a constructor; `Codec/Sound.lean` proves, once and for all
and by induction over objects of any depth, that agreeing methods read back
what was written; `Codec/Roundtrip.lean` evaluates the agreement for all pairs
in the kernel.  The tables `covered` (attributes and types for which the round
trip is claimed) and `lossy` (attributes that do not come back) in
`Codec/Tables.lean` are part of the statements: the property files about
classes that lose something state again, in their own `lost` and `first`, what
that is, and the kernel checks that it is all; the others (values, texts) claim
that nothing is lost.  `Codec/Samples.lean` shows that every covered attribute
of every class, with every type it may have, can be set in a well-formed object,
so no hypothesis is vacuous.

## What is modelled and what is not

Modelled: `base.py` (split/join of references, settings), `xml/base.py`,
`xml/reference.py`, `xml/enumeration.py` (all tables), `xml/exception.py`
(as exception classes), `xml/document.py`, `xml/template.py`,
`xml/workspace.py` (except what is listed below), `xml/writer.py`,
`xml/reader.py`, of `xml/element.py` the constructors, the containers, `find`,
`ref`, and the creation methods the properties name, `model/*.py` and
`generator/type_generator.py` up to the calls of the C printing library (cfile).

Not modelled:

* lxml on arbitrary input: the parser in `Verif/Xml/Parse.lean` is a
  specification of elements, attributes, text, predefined entities and numeric
  character references.  It rejects comments, CDATA sections, processing
  instructions inside the document and document type declarations, and does not
  resolve name spaces.  What lxml does with such input is outside; theorems about
  files of others (C48–C54) are stated for any tree of elements a parser may
  yield.
* IEEE rounding: `float(text)` and `str(float)` are taken to be the identity on
  the shortest decimal representation.
* Files, console output, TOML configuration parsing, the library that prints C
  code (`cfile`); C56 assumes it prints each line as what it was asked for.
* Codec: the contents of `ADMIN-DATA` (read, but the constructor of Identifiable
  drops them; what is raised while they are read is modelled); schema versions
  below 50 (they differ in the exclusive areas of runnables only) outside of C63; a
  schema version that is not an integer; integers as display formats; `default_pattern_format`; string limits of computation scales; the interval
  type of a limit is kept together with the limit, so an interval type without
  limit is not expressible; type checks of constructors are shallow (class of
  the argument, not its contents); instance references are split into one class
  per use; messages about unprocessed elements.  `service_kind` of port
  interfaces is outside the round trip because writing it raises
  (`C42_service_kind`).
* Codec: the constructor of a runnable may change names of access points (C12).
  `Codec/Lang.lean` leaves them as they are; `Codec/Rename.lean` says what the
  constructor makes of them, and `C45_names`, `C22_names` show that it leaves them
  alone if no two of a kind are the same and they contain no characters with a
  meaning in regular expressions.  `C45_renamed`, `C22_renamed` say what it may
  change if some are the same.
* Strings that are empty or need escaping, and floats with more than 28 digits
  before the decimal point, are outside the codec's round-trip theorems: the
  first come back as `None`, the second are C18, the third C20.
* Com-specs and ports: first elements of pairs are texts, remaining keyword
  arguments are valid; access points: every entry has an argument dictionary of
  its own, and the renaming done by `append_*` is C12, not part of C35
  (`Verif/Swc`).
* Events: what the type reference of a mode group leads to is a mode declaration
  group; ports, elements and modes are in packages, so that they have a reference
  (`Verif/Swc/Event.lean`).
* Serialisation succeeds when workspace documents are written (`Verif/Work`).
* Names of package members never change after construction (`Verif/Pkg`).
* Element templates' create methods are arbitrary scripts of package calls that
  do not themselves apply templates or change namespaces (`Verif/Work`).

## Findings

Each is a theorem (a negation or an exact characterisation) unless marked
"observed", which means seen while transcribing and visible in the model, but
not stated as a theorem of its own.

* C03 – a mode transition is its own parent, so `ref()` does not terminate
  (`C03_mode_transition_ref_diverges`); elements with empty names cannot be
  found by their reference (`C03_empty_name_counterexample`).
* C05 – `make_packages("a//b")` fails after having created `a`
  (`C05_failure_not_atomic`).
* C06 – `create_package` returns the ValueError object instead of raising it
  when the name exists (`C06_duplicate_create_does_not_raise`, exact result in
  `C06_create_package_partial`).
* C07 – `find` below an element without `find` raises AttributeError
  (`C07_below_element_counterexample`); `SwComponentType.find` ignores the rest
  of the path.
* C08 – omitting the destination of a reference class with several raises
  TypeError instead of ValueError (`C08_several_need_dest`).
* C10, C11, C12 – generated names are not unique for base names with regular
  expression characters (`C10_regex_counterexample`); events "x", "x_0", "x"
  collide (`C11_counterexample`); the third access point with one name collides
  (`C12_third_append_collides`).  Since the reader passes the names through the
  same methods, a runnable with such names comes back from a file with others
  (`C12_reload_counterexample`).
* C13 – NaN passes every limit check; an absent limit raises TypeError
  (`C13_nan_accepted`, `C13_absent_limit_raises`).
* C18 – text and attributes are written without escaping (`C18_counterexample`,
  `C18_attribute_counterexample`).
* C19 – negative hexadecimal and binary numbers are written as `0x-5` and
  cannot be read (`C19_negative_counterexample`); scientific notation keeps
  seven digits (`C19_scientific_counterexample`).
* C20 – integral floats of 29 or more digits cannot be written
  (`C20_fails_iff`).
* C21 – booleans in numerical values are written as "True", which cannot be read
  (`C21_findings`).
* C23–C25, C42–C46 – the writer leaves out the UUID of 55 classes (the `lost` tables of
  the property files; a witness is in `C23_findings`); all annotations of data
  definition properties but the first are lost (`C23_findings`); the validity of scale
  constraints is not read, fractions without numerator cannot be read
  (`C24_findings`); in texts, BR, E, IE, SUB and SUP elements make reading
  raise, text after a technical term is replaced by the text at the beginning,
  or reading raises if there is none (`C25_text_parts`, `C25_texts`,
  `C25_findings`); port interfaces with a service kind cannot be written
  (`C42_service_kind`).
  Observed: superscripts cannot be added to long names and paragraphs, nor line
  breaks to overview paragraphs, because `Subscript` is listed twice where the type is
  checked (element.py 598, 621, 806); a data filter with a negative offset or period
  can be written but not read;
  `INTRODUCTION` or `ANNOTATIONS` below an identifiable element make
  its constructor raise TypeError; a string given as
  `physical_dimension_ref` of a unit is replaced by the display name;
  `SingleLanguageUnitNames("text")` splits the text into characters; a single
  possible error of a ClientServerInterface and a plain string as label of a
  value group raise TypeError; SenderReceiverInterface with data elements of an
  unsupported type raises NameError instead of the intended TypeError;
  `ImplementationDataType.append` sets no parent.
* C26 – duplicates among sub-packages raise DuplicateElement, among root packages
  ValueError, even without stop_on_error (`C26_subpackages`,
  `C26_root_packages`, `C26_outcome`).
* C27 – templates with `append_to_package=False` create anew each time
  (`C27_counterexample`).
* C28 – relative base references are put in front twice, two leading slashes are
  kept (`C28_counterexample`).
* C29, C30 – packages get the document as parent, so references change, and a
  second write raises (`C29_second_write_raises`, `C29_counterexample`);
  duplicate suffixes raise DuplicateElement (`C30_counterexample`).
* C31, C32 – a type first created as a dependency is not recorded as a source
  later (`C31_late_source_counterexample`); detached elements share the key
  "None" (`C32_detached_counterexample`).  Observed: arrays whose last
  sub-element sets policies raise ValueError, arrays with several sub-elements
  AttributeError, pointer types NotImplementedError; a failed source creation
  leaves the reference behind, so that a later request raises KeyError.
* C33 – directions of delegation and pass-through connectors are not checked,
  PR ports are refused in assemblies (`C33_counterexample`).
* C34 – unknown names on the require side raise TypeError; a single com-spec
  object is silently dropped; repeated element names get one com-spec
  (`C34_findings`).
* C35 – prefixes of the other direction are accepted, several combinations do
  nothing silently, a single parameter raises AttributeError (`C35_findings`).
* C36, C37 – references mixed with names are dropped; names fail outside a
  package; runnable names are not checked; valid ports are already changed when
  an unknown name raises (`C36_findings`, `C37_findings`).
* C39 – a setting named like a method is accepted and hides it
  (`C39_method_name_accepted`).
* C47 – documents written without root attributes (the default of `write_str`)
  get the version the reader happens to have (`C47_str_counterexample`).
* C49 – an element with an escaped `&` in it is loaded and saved without
  complaint, but the saved text cannot be loaded (`C49_counterexample`).
* C50 – identifiable elements with INTRODUCTION or ANNOTATIONS cannot be read:
  the constructors do not take what was read, so TypeError is raised.  The same
  holds for LONG-NAME of symbol properties and activation reasons, IS-SERVICE of
  mode declarations, PORTS of component prototypes and some more (`rejected` in
  `RejectSpec.lean`, `C50_counterexample`).
* C51 – TypeError, KeyError, ValueError raised for a single element are not
  caught, so that one such element, for example a unit with an introduction,
  keeps the whole file from being read even without stop_on_error
  (`C51_counterexample`, `C51_introduction`).
* C52 – administrative data is lost (`C52_ignored`); ADMIN-DATA without SDGS
  (for example with a LANGUAGE only) and SDGs without SD or GID make the element
  unreadable (`C52_unreadable`), and with C51 the file.
* C53 – limits, numerical values, array sizes, constraint levels, bit positions
  and masks of compu scales are read by `int(text)` and `float(text)`
  (reader.py 454-465), so that `0x1F` or `0b1` there makes the element unreadable
  (`C53_counterexample`).  Octal `017` is read as seventeen there
  (`C53_octal_counterexample`), and makes the element unreadable where
  `int(text, 0)` is used (reader.py 467-475, `C53_octal_unreadable`).  That the
  schema has these notations is from its published version; it is not in the
  repository.
* C54 – VALIDITY of scale constraints and SERVICE-KIND of port interfaces are
  written but not read (writer.py 1214, 2907; reader.py 3340: "Implement later")
  (`C54_counterexample`).  An initial value in which an enumeration text is
  unknown is dropped without a message, because `except KeyError` around it, which
  is meant for unknown tags, catches that too (reader.py 2199-2206).  An empty
  BASE-TYPE-ENCODING or NATIVE-DECLARATION is read as the text "None".
  The comments in element.py naming the tags are misprinted at 413, 1643, 1730,
  2487, 2516, 4199, 4200, 4255, 4628 and 4629.
* C55 – the name of an event is made unique, which may rename another event,
  before it is known whether the event can be made: a mode switch event with an
  unknown mode, or any event with refused further arguments, leaves the other
  event renamed (element.py 8382-8417, `C55_failed_counterexample`).  In
  `Port/Element/rest` the rest is ignored (`C55_rest_ignored`).  A text that names
  a mode transition raises AttributeError (`C55_transition_finding`).  The message
  about mode references lists `<PortName>` as a format, but it is refused
  (element.py 8383, 8457-8459).  `create_data_send_completed_event` and
  `create_data_write_completed_event` are not implemented.
  The mode group of an interface read from a file has no reference, and events
  created for it have none either (`C55_group_finding`); in a behaviour read from a
  file events on ports cannot be created, and others start no runnable
  (`C55_loaded_finding`, see C57).
* C56 – type_generator.py 51 and 63 say `#ifndef __cplusplus` where `#ifdef` is
  meant: a C compiler sees `extern "C" {` and refuses the header, a C++ compiler
  gets no linkage specification (`C56_c_counterexample`, for every header).  Types
  of the same short name in different packages are declared twice
  (`C56_names_counterexample`).  The type emitter of type references is dropped, so
  types of other emitters are declared (implementation.py 130-142,
  `C56_emitter_counterexample`).  Symbols are never used
  (`C56_symbol_counterexample`).  Pointers raise NotImplementedError, arrays with
  more than one dimension AttributeError (implementation.py 164-166).
* C57 – the parent is never set for sub-elements of data types, elements of arrays
  and records and arguments of operations, so their `ref()` is always `None`; for
  the internal behaviour of a component and the mode group of an interface it is
  set by `create_internal_behavior`, the setter and `create_mode_group` only, not
  when they are passed to the constructor, as the reader does (element.py 3863,
  5151; `C57_none`, `C57_behavior_counterexample`).  Access points in different
  lists of a runnable may have the same reference (`C57_apart_counterexample`).
  A single `ApplicationError` passed as `possible_errors` raises TypeError (element.py
  3777-3778 calls `append_operation`); a wrong argument for `data_elements` raises
  UnboundLocalError (3392); a tuple as `elements` of a record is ignored (2276-2280).
* C58 – `create_package_map` empties the map before it creates the first package: if
  it fails, or if the mapping is empty, the keys given before are lost
  (`C58_failure`, `C58_finding`).
* C59 – a table is accepted for the packages of a document, its keys are taken; a
  document without packages raises TypeError; an error leaves the entries before it
  in effect; `update = "…"` under `[behavior]` is accepted, hides the method of that
  name and makes later calls raise TypeError (element.py 2977-2985, `C59_findings`).
* C61 – only software components, mode declaration groups and implementation data
  types have `find`: the references that `ref()` gives for data elements, parameters,
  operations, elements of records etc. make `find` of workspace, document or package
  raise AttributeError.  Components look at one name only (4917-4925, 5391-5402): the
  reference to a runnable or an event leads to the port with the name of the
  behaviour, or to None (`C61_findings`).
* C63 – with a schema version below 50, an exclusive area without reference makes
  writing a runnable raise AssertionError (`C63_refused`; from 50 on it is written).
  Elements written for a version below 50 and read by a reader for a version from 50 on
  lose the exclusive areas of runnables without any message (`C63_crossed`); the reader
  looks for the tags of its own version only (reader.py 5080-5116).  Documents
  written with `write_str` without root attributes are concerned, too.
* C64 – `make_constant(name, True)` is accepted and written with `<VALUE>True</VALUE>`
  (writer.py 145-146: a bool is an int), which the reader refuses (`C64_findings`).
* C68 – after loading, behaviours do not know their components (see C57): every method
  for events about ports raises RuntimeError, and events of the other kinds are made
  without `start_on_event`, so they start nothing, whatever runnable was named
  (`C68_loaded_finding`).
* C72 – after loading, mode groups do not know their interfaces (see C57): making a
  specification for a port with such an interface raises AssertionError, as it did not
  before (element.py 4119, 4436, `C72_loaded_finding`).
* C73 – after loading, behaviours do not know their components (see C57, C68):
  `create_port_access` raises RuntimeError, whatever the texts (`C73_loaded_finding`), and
  points for modes would have no reference to the mode group.

## Testing the theorems

`seeded/LOG.jsonl` lists the wrong programs tried: each line is an edit of the
model in a scratch copy, the claim it breaks and the theorems that failed.  A
mutation that only broke an `example` or a theorem about a literal case counts
as survived; those led to tightened theorems (`theorems_tightened`).  Where only
a lemma on the way to a property theorem failed, the mutation is logged as
detected, with a `note` if the property itself is still true of the edited
program; a lemma that fails does not alone show that the property theorem would.
The theorems listed are those that failed in the modules of the claim; modules that
import these were built only where those passed, and for the latest entries not then.
`invalid` marks edits that did not compile and so tested nothing.

## Trusted base

Lean 4.33.0's kernel; the axioms `propext`, `Classical.choice`, `Quot.sound`
(no others; `#print axioms` per theorem in `Verif/Axioms.lean`); the reading of
the Python source recorded in the comments of every definition.
