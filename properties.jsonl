{"id": "C01", "title": "Sibling short-names stay unique under any construction history", "statement": "After any sequence of append / create_package / make_packages calls on packages and package collections, successful or rejected, no package and no collection holds two items (elements or sub-packages) with the same short-name, and every item a container lists is the one its own name lookup returns.", "quantifier": "all finite histories of construction calls, all names, all object graphs those calls can build", "why_tests_cant": "tests exercise a few call orders; the claim is an invariant over unbounded histories including rejected calls and re-used objects", "anchors": ["src/autosar/xml/element.py:Package.append", "src/autosar/xml/element.py:Package.make_packages", "src/autosar/xml/element.py:Package.create_package", "src/autosar/xml/element.py:PackageCollection.append", "src/autosar/xml/element.py:PackageCollection.make_packages"]}
{"id": "C02", "title": "A rejected duplicate append changes nothing", "statement": "If append raises because the short-name is already taken, the container's contents, every lookup through it and the parent of the rejected item are exactly what they were before the call. A package refuses what is neither a package nor an element with TypeError, and a document ignores what is no package without an exception; nothing changes in either case.", "quantifier": "all containers, all items whose name collides", "why_tests_cant": "atomicity of the error path must hold for every prior state, not for the one state a test builds", "anchors": ["src/autosar/xml/element.py:Package.append", "src/autosar/xml/element.py:PackageCollection.append"]}
{"id": "C03", "title": "ref() of an attached element resolves back to that element", "statement": "For every package or element reachable from a package collection through its packages, whose short-names are non-empty and contain no '/', collection.find(str(x.ref())) returns x itself.", "quantifier": "all collections, all nesting depths, all names without '/'", "why_tests_cant": "depth and sibling sets are unbounded; a wrong split/join would only show for some shapes", "anchors": ["src/autosar/xml/element.py:Identifiable._calc_ref_string", "src/autosar/xml/element.py:Package.find", "src/autosar/xml/element.py:PackageCollection.find"]}
{"id": "C04", "title": "ref() is None exactly while the element is detached; attached refs are distinct", "statement": "ref() returns None if and only if some ancestor chain of the element does not end in a package collection, and two different elements reachable from the same collection never have equal reference strings.", "quantifier": "all parent chains, all collections", "why_tests_cant": "quantifies over all chains and all pairs of elements", "anchors": ["src/autosar/xml/element.py:Identifiable.update_ref_parts", "src/autosar/xml/element.py:Identifiable._calc_ref_string"]}
{"id": "C05", "title": "make_packages creates the whole path, once, and disturbs nothing else", "statement": "collection.make_packages(ref) returns the package that find(ref) returns afterwards; calling it again returns the same package and changes nothing; every lookup that found something before still finds the same thing.", "quantifier": "all collections, all multi-segment references", "why_tests_cant": "frame and idempotence over all trees and paths", "anchors": ["src/autosar/xml/element.py:PackageCollection.make_packages", "src/autosar/xml/element.py:Package.make_packages"]}
{"id": "C06", "title": "create_package signals a duplicate name by raising", "statement": "create_package on a name that already exists raises an exception. (False of the code: it returns the exception object as if it were the package.)", "quantifier": "all packages and names", "why_tests_cant": "a test would have to think of using the return value; the claim is about every duplicate", "anchors": ["src/autosar/xml/element.py:Package.create_package", "src/autosar/xml/element.py:PackageCollection.create_package"]}
{"id": "C07", "title": "find ignores redundant slashes only, and never returns a wrong node", "statement": "find returns the node whose path equals the requested path split at '/', where one leading slash per segment and one trailing slash are ignored; when a segment does not exist the result is None.", "quantifier": "all trees of packages and elements, all reference strings", "why_tests_cant": "string-shape dependent behaviour over all strings", "anchors": ["src/autosar/xml/element.py:Package.find", "src/autosar/xml/element.py:PackageCollection.find"]}
{"id": "C08", "title": "Every reference object has an allowed destination type", "statement": "A reference object of any reference class can only come into existence with a dest that the class accepts; for classes with one accepted dest it is that dest, for classes with several omitting it is an error. A reference to a port says that it leads to a provided port (is_provide_port_ref) exactly if its destination type is one of those for references to provided ports, and likewise for required ports.", "quantifier": "all reference classes, all constructor arguments", "why_tests_cant": "61 classes times all enum members and argument kinds", "anchors": ["src/autosar/xml/base.py:BaseRef.__init__", "src/autosar/xml/reference.py"]}
{"id": "C09", "title": "Assigning a reference attribute accepts exactly the compatible values", "statement": "Assigning v to an attribute of reference class R succeeds iff v is a string and R has exactly one accepted destination, or v is a reference whose class is R or whose dest R accepts; on success the attribute holds an R with v's path and an accepted dest, otherwise TypeError is raised and the attribute keeps its value.", "quantifier": "all reference classes, all values", "why_tests_cant": "decision table over all class/dest pairs", "anchors": ["src/autosar/xml/base.py:ARObject._check_and_set_reference", "src/autosar/xml/base.py:ARObject._assign"]}
{"id": "C10", "title": "Generated unique names are fresh", "statement": "The name returned by the unique-name helper never equals the name of any element in the list as it is after the call, whatever names are in the list.", "quantifier": "all lists of names, all base names", "why_tests_cant": "suffix arithmetic over arbitrary existing names", "anchors": ["src/autosar/xml/element.py:make_unique_name_in_list"]}
{"id": "C11", "title": "Event names inside a behaviour stay unique through the create_* API", "statement": "However many events are created through the create_*_event methods with whatever explicit or default names, the names in the events list are pairwise distinct. (False in general: renaming an existing 'x' to 'x_0' can collide with an 'x_0' that is already there; true as long as no created base name already looks like a generated suffix of another.)", "quantifier": "all finite sequences of event creations", "why_tests_cant": "interaction between arbitrary earlier names and renames", "anchors": ["src/autosar/xml/element.py:make_unique_name_in_list", "src/autosar/xml/element.py:SwcInternalBehavior._make_unique_event_name"]}
{"id": "C12", "title": "Access points appended to a runnable have unique names", "statement": "Appending access points (variable accesses, call points, ...) to a runnable keeps their names pairwise distinct. (False of the code: the append methods discard the generated unique name, so the third append of one name yields two elements with the same name; two appends are fine.)", "quantifier": "all sequences of append calls", "why_tests_cant": "needs histories of three or more colliding appends", "anchors": ["src/autosar/xml/element.py:RunnableEntity.append_server_call_point", "src/autosar/xml/element.py:make_unique_name_in_list"]}
{"id": "C13", "title": "Limit checks are interval membership", "statement": "check_value(v) is true exactly when v lies in the interval described by the lower/upper limits and their OPEN/CLOSED types.", "quantifier": "all limits, interval types and values", "why_tests_cant": "boundaries for every value and type combination", "anchors": ["src/autosar/xml/element.py:LimitObject.check_value"]}
{"id": "C14", "title": "Value tables map labels to the declared numbers", "statement": "make_value_table turns the i-th entry of the list into the i-th scale: a plain string at position i gets limits [i,i]; (n,label) gets [n,n]; (lo,hi,label) gets [lo,hi]; all closed; anything else is rejected and nothing is built.", "quantifier": "all lists of entries of all shapes, any length", "why_tests_cant": "unbounded mixed lists and error positions", "anchors": ["src/autosar/xml/element.py:Computation.make_value_table"]}
{"id": "C15", "title": "make_value builds exactly the described value specification", "statement": "Building a value specification from nested Python data preserves labels, order, nesting and scalar values, classifies every node by its Python type and marker, and fails with a definite error on malformed data at any depth.", "quantifier": "all nested data of unbounded depth and width", "why_tests_cant": "recursive structure, error anywhere", "anchors": ["src/autosar/xml/element.py:ValueSpecification.make_value"]}
{"id": "C16", "title": "Enumerations survive XML", "statement": "For every enumeration type with an XML form and every member, writing the member and reading the text back gives the same member in every schema version in which it may be written; different members have different texts.", "quantifier": "all enum types, members and schema versions", "why_tests_cant": "two hand-written tables with ~350 entries must agree pointwise; versions are unbounded", "anchors": ["src/autosar/xml/enumeration.py:xml_to_enum", "src/autosar/xml/enumeration.py:enum_to_xml"]}
{"id": "C17", "title": "The document writer emits balanced, correctly indented markup", "statement": "Whatever document is written, the emitted text closes every element it opens in the right order, indentation returns to zero, every line is indented two spaces per open element and the document parses back to the element tree the writer walked.", "quantifier": "all element trees of any depth", "why_tests_cant": "requires all nesting shapes", "anchors": ["src/autosar/xml/writer.py:_XMLWriter._add_child", "src/autosar/xml/writer.py:_XMLWriter._leave_child", "src/autosar/xml/writer.py:_XMLWriter._add_content"]}
{"id": "C18", "title": "Any text can be written", "statement": "Every text value (names, descriptions, labels) is represented in the output such that reading returns the same text. (False of the code: text is emitted unescaped, so '<' or '&' breaks the document; true for text without markup characters.)", "quantifier": "all strings", "why_tests_cant": "quantifies over all strings; tests use plain identifiers", "anchors": ["src/autosar/xml/writer.py:_XMLWriter._add_content", "src/autosar/xml/writer.py:_XMLWriter._attr_to_str"]}
{"id": "C19", "title": "Integers survive XML in every notation", "statement": "Writing an integer in decimal, hexadecimal or binary notation and reading it back yields the same integer and, for numerical values, the same notation. (False for negative hexadecimal/binary values, which are written as 0x-5; true for non-negative ones and for all decimal ones.)", "quantifier": "all integers, all notations", "why_tests_cant": "unbounded integers", "anchors": ["src/autosar/xml/writer.py:_XMLWriter._format_numerical_value", "src/autosar/xml/element.py:NumericalValue", "src/autosar/xml/reader.py:Reader._read_number"]}
{"id": "C20", "title": "Floating-point numbers keep their value in XML", "statement": "The text written for a finite float denotes exactly the number its shortest decimal representation denotes, integral values are written without fraction or exponent, and writing never fails. (False for integral values of 29 or more digits, where writing raises; true below.)", "quantifier": "all decimal representations of floats", "why_tests_cant": "all digit/exponent combinations", "anchors": ["src/autosar/xml/writer.py:_XMLWriter._format_float"]}
{"id": "C21", "title": "Value specifications survive XML", "statement": "Writing any value specification (text, number, not-available, array, record, application value, constant reference; nested to any depth) and reading it back yields an equal value specification. Floats without fractional part may come back as ints.", "quantifier": "all value specification trees whose strings are non-empty and contain no character that XML would have to escape, and whose floats have at most 28 digits before the point", "why_tests_cant": "unbounded nesting", "anchors": ["src/autosar/xml/writer.py:Writer._write_value_specification_element", "src/autosar/xml/reader.py:Reader._read_value_specification_element"]}
{"id": "C22", "title": "Package trees survive XML", "statement": "Writing a document and reading it back, with or without stop_on_error, yields the same packages, sub-packages and elements in the same order with the same names and classes, each element with the contents it has when written and read by itself.", "quantifier": "all trees of well-formed packages and elements of any class with a writer, without two elements or sub-packages of the same name in one package, schema version 50 or later", "why_tests_cant": "unbounded nesting and order", "anchors": ["src/autosar/xml/writer.py:Writer._write_package", "src/autosar/xml/reader.py:Reader._read_package"]}
{"id": "C23", "title": "Data types survive XML", "statement": "Every base type, implementation data type (including nested sub-elements and pointer targets), application data type and data type mapping read back from its written form equals the original. (False for the UUIDs of implementation and application data types and of their elements, which do not come back, and for all annotations but the first.)", "quantifier": "all data type objects of unbounded nesting with non-empty XML-safe strings", "why_tests_cant": "dozens of optional fields combined freely", "anchors": ["src/autosar/xml/writer.py:Writer._write_implementation_data_type", "src/autosar/xml/reader.py:Reader._read_implementation_data_type"]}
{"id": "C24", "title": "Computation methods, constraints and units survive XML", "statement": "Every computation method, data constraint and unit read back from its written form equals the original up to int/float representation of integral numbers. (False for the validity of scale constraints, which is dropped, and for fractions without numerator, which cannot be read.)", "quantifier": "all objects of these classes with non-empty XML-safe strings and floats of at most 28 digits before the point", "why_tests_cant": "all combinations of optional fields", "anchors": ["src/autosar/xml/writer.py:Writer._write_compu_method", "src/autosar/xml/reader.py:Reader._read_compu_method", "src/autosar/xml/reader.py:Reader._read_constraint_base"]}
{"id": "C25", "title": "Descriptions and annotations survive XML", "statement": "Multi-language texts with inline markup and lists of annotations read back equal. (False: of several annotations only the first survives; inline elements other than technical terms make reading fail; text after a technical term is replaced by the text at the beginning, and reading fails if there is none.)", "quantifier": "all mixed contents and annotation lists with XML-safe strings", "why_tests_cant": "all interleavings of text and markup", "anchors": ["src/autosar/xml/writer.py:Writer._write_annotations", "src/autosar/xml/reader.py:Reader._read_annotations", "src/autosar/xml/reader.py:Reader._read_mixed_content_for_paragraph"]}
{"id": "C26", "title": "Reading tolerates duplicates by keeping the first", "statement": "Reading a document in which entries of ELEMENTS have the same short-name keeps exactly the first of each name, in document order, in every package, and, with stop_on_error, raises DuplicateElement at the first repetition instead. (Sub-packages and root packages are treated differently: any repetition among them raises, with and without stop_on_error.)", "quantifier": "all element lists", "why_tests_cant": "all repetition patterns", "anchors": ["src/autosar/xml/reader.py:Reader._read_package_elements", "src/autosar/xml/element.py:Package.append"]}
{"id": "C27", "title": "Applying a template is idempotent and creates each element once", "statement": "Applying an element template any number of times, directly or as a dependency of other templates, calls its create function at most once, always yields the same element, and all its dependencies exist before its create function runs.", "quantifier": "all acyclic dependency graphs of templates, all application sequences", "why_tests_cant": "all graphs and orders", "anchors": ["src/autosar/xml/workspace.py:Workspace.apply", "src/autosar/xml/workspace.py:Workspace._apply_element_template", "src/autosar/xml/workspace.py:Workspace._create_dependencies"]}
{"id": "C28", "title": "Package roles resolve to normalized absolute references", "statement": "The package reference for a role is the absolute reference of the place reached by walking from the root down the namespace's base reference and then the role's relative path, with '.' and '..' followed and repeated slashes ignored; an absolute path in the package map is used by itself, without the base. Unknown namespaces, roles and role names are rejected. (False when the base reference does not start with exactly one slash: a relative base is put in front twice, two leading slashes are kept.)", "quantifier": "all namespaces, roles and relative paths", "why_tests_cant": "all path strings", "anchors": ["src/autosar/xml/workspace.py:Workspace.get_package_ref_by_role", "src/autosar/xml/workspace.py:Namespace"]}
{"id": "C29", "title": "Writing documents does not disturb the workspace", "statement": "After write_documents every element has the same reference and can be found as before, and documents can be written again. (False: packages are re-parented to the document, so their reference changes, and writing twice raises.)", "quantifier": "all workspaces and document configurations", "why_tests_cant": "aliasing between workspace and documents, second call", "anchors": ["src/autosar/xml/workspace.py:Workspace.write_documents", "src/autosar/xml/element.py:PackageCollection.append"]}
{"id": "C30", "title": "Element-to-document mapping selects by type and suffix and loses nothing else", "statement": "Mapping a package to documents generates one document per element accepted by the type filter, in package order; it contains exactly that element and the elements whose name is that name plus one of the (non-empty) suffixes, each once, sorted by name, inside a package with the same reference. (False when a suffix is listed twice, which raises, and when the package was written to a document before, which changes its reference.)", "quantifier": "all packages, filters and suffixes", "why_tests_cant": "all element lists and filters", "anchors": ["src/autosar/xml/workspace.py:Workspace._gen_package_to_document_mapping"]}
{"id": "C31", "title": "Type emission order defines before use", "statement": "In the list of data types produced for code generation every type appears once and every type it depends on that is emitted at all appears before it.", "quantifier": "all acyclic type graphs of any depth and sharing", "why_tests_cant": "all DAG shapes, including diamonds at different depths", "anchors": ["src/autosar/model/implementation.py:ImplementationModel.get_type_creation_order", "src/autosar/generator/type_generator.py:TypeGenerator.gen_data_type_creation_order"]}
{"id": "C32", "title": "The implementation model creates one model element per reference", "statement": "Creating model elements from references, directly or as dependencies, yields for each reference one object that every later request returns unchanged.", "quantifier": "all request sequences and acyclic type graphs", "why_tests_cant": "memoization across histories", "anchors": ["src/autosar/model/implementation.py:ImplementationModel.create_from_element"]}
{"id": "C33", "title": "create_connector chooses the connector kind by where the ports live", "statement": "create_connector yields an assembly, delegation or pass-through connector exactly according to whether both, one or none of the ports belong to inner components, with provider and requester the right way round, and rejects two ports of the same direction on an assembly. (False for pass-through: the direction of the two ports is not checked.)", "quantifier": "all compositions and pairs of port references", "why_tests_cant": "all combinations of inner/outer and P/R/PR ports", "anchors": ["src/autosar/xml/element.py:CompositionSwComponentType.create_connector"]}
{"id": "C34", "title": "Com-specs created for a port cover the right data elements", "statement": "Creating communication specifications for a port from keyword data yields, in interface order, exactly one spec per named data element, queued iff the element is queued, and rejects names the interface does not have.", "quantifier": "all interfaces and argument mappings", "why_tests_cant": "all subsets and orders", "anchors": ["src/autosar/xml/element.py:ProvidePortComSpec.make_from_port_interface", "src/autosar/xml/element.py:RequirePortComSpec.make_from_port_interface"]}
{"id": "C35", "title": "Port access strings are parsed unambiguously", "statement": "A port access string '[PREFIX:]port[/element]' selects the access kind, port and element it spells, and every malformed string is rejected.", "quantifier": "all strings", "why_tests_cant": "all strings", "anchors": ["src/autosar/xml/element.py:RunnableEntity.create_port_access"]}
{"id": "C36", "title": "Exclusive-area names given to create_runnable resolve completely or not at all", "statement": "create_runnable with exclusive-area names either references exactly the named areas of the behaviour or raises and adds no runnable.", "quantifier": "all behaviours and name lists", "why_tests_cant": "all lists with unknown/duplicate names", "anchors": ["src/autosar/xml/element.py:SwcInternalBehavior.create_runnable"]}
{"id": "C37", "title": "Port API options cover exactly the requested ports", "statement": "create_port_api_options('*') leaves one option per port of the component, keyed by port name; with explicit names it covers exactly those and raises if one is unknown.", "quantifier": "all components and name lists", "why_tests_cant": "all port lists and name lists", "anchors": ["src/autosar/xml/element.py:SwcInternalBehavior.create_port_api_options"]}
{"id": "C38", "title": "Splitting a reference and joining it back is the identity", "statement": "split_ref of a reference string and joining with '/' gives the reference back (up to the leading slash); split_ref_strict accepts exactly non-empty strings without leading slash.", "quantifier": "all strings", "why_tests_cant": "all strings", "anchors": ["src/autosar/base.py:split_ref", "src/autosar/base.py:split_ref_strict"]}
{"id": "C39", "title": "Behaviour settings behave like a typed map", "statement": "After any sequence of settings updates, each known setting has the last successfully written value; unknown names and non-string values are rejected without changing anything already stored by that call's predecessors.", "quantifier": "all update sequences", "why_tests_cant": "histories", "anchors": ["src/autosar/xml/element.py:BehaviorSettings"]}
{"id": "C40", "title": "Attributes for non-negative integers, forms and enumerations hold only such values", "statement": "Positive-integer attributes hold a non-negative integer or None after any sequence of constructions and assignments; negative values raise ValueError, non-integers TypeError, leaving the value unchanged. Positive-integer values made of texts take the texts of integers that are not negative, in any notation. Attributes for an integer or a text of a form (alignment, display format) hold an integer, a text that their pattern matches (at its beginning) or None; other texts raise ValueError, values of other types TypeError, leaving the value unchanged. Attributes of an enumeration class hold a member of that class or None; anything else raises TypeError, leaving the value unchanged.", "quantifier": "all assignment histories", "why_tests_cant": "histories and all integers", "anchors": ["src/autosar/xml/base.py:ARObject._set_attr_positive_int", "src/autosar/xml/base.py:ARObject._assign_int_or_str_pattern", "src/autosar/xml/base.py:ARObject._set_attr_with_strict_type", "src/autosar/xml/element.py:PositiveIntegerValue"]}
{"id": "C41", "title": "Configured documents contain their packages in order", "statement": "A successful write_documents writes one file per configured document, in configuration order and under the document root, each listing exactly the packages its references lead to (references that lead nowhere are skipped), in order, and every other object is written as it was.", "quantifier": "all workspaces reachable by package operations, document configurations and earlier writes", "why_tests_cant": "all histories, shared packages and numbers of documents", "anchors": ["src/autosar/xml/workspace.py:Workspace._write_document_from_config", "src/autosar/xml/workspace.py:Workspace.write_documents"]}
{"id": "C42", "title": "Port interfaces and mode declaration groups survive XML", "statement": "Every port interface (sender-receiver, client-server, mode-switch, NV data, parameter) and mode declaration group, with its data elements, operations, arguments, errors, modes and transitions, read back from its written form equals the original except for the UUIDs of port interfaces, errors, operations, modes and transitions and for all annotations but the first. A port interface with a service kind cannot be written at all: writing raises.", "quantifier": "all port interfaces and mode declaration groups with non-empty XML-safe strings", "why_tests_cant": "any number of elements, operations and arguments, all combinations of optional fields", "anchors": ["src/autosar/xml/writer.py:Writer._write_port_interface", "src/autosar/xml/reader.py:Reader._read_port_interface"]}
{"id": "C43", "title": "Ports and communication specifications survive XML", "statement": "Every port prototype with any number of communication specifications of any kind, and every communication specification by itself, read back from its written form equals the original except for the UUIDs of ports and variable accesses and for all annotations but the first.", "quantifier": "all ports and communication specifications with non-empty XML-safe strings", "why_tests_cant": "all combinations of kinds, counts and optional fields", "anchors": ["src/autosar/xml/writer.py:Writer._write_provide_port_prototype", "src/autosar/xml/reader.py:Reader._read_provide_port_prototype"]}
{"id": "C44", "title": "Compositions survive XML", "statement": "Every composition with any number of ports, component prototypes and connectors, and each of these by itself, read back from its written form equals the original except for UUIDs and for all annotations but the first.", "quantifier": "all compositions with non-empty XML-safe strings", "why_tests_cant": "any number of ports, components and connectors of all kinds", "anchors": ["src/autosar/xml/writer.py:Writer._write_composition_sw_component_type", "src/autosar/xml/reader.py:Reader._read_composition_sw_component_type"]}
{"id": "C45", "title": "Application components and their behaviour survive XML", "statement": "Every application component with its ports and internal behaviour (any number of runnables, events, access points, port API options and exclusive areas), and each of these by itself, read back from its written form equals the original except for UUIDs and for all annotations but the first.", "quantifier": "all application components and behaviour elements with non-empty XML-safe strings", "why_tests_cant": "all combinations of events, access points and optional fields", "anchors": ["src/autosar/xml/writer.py:Writer._write_application_software_component_type", "src/autosar/xml/reader.py:Reader._read_application_sw_component_type"]}
{"id": "C46", "title": "Implementations and end-to-end properties survive XML", "statement": "Every component implementation with its code descriptors and every end-to-end protection property read back from its written form equals the original except for UUIDs.", "quantifier": "all objects of these classes with non-empty XML-safe strings", "why_tests_cant": "all combinations of optional fields and numbers of descriptors", "anchors": ["src/autosar/xml/writer.py:Writer._write_swc_implementation", "src/autosar/xml/reader.py:Reader._read_swc_implementation"]}
{"id": "C47", "title": "The schema version of a document survives XML", "statement": "A document that is written and read back has the schema version it was written with. (True for documents written with the attributes of the root element, as write_file does; false for write_str's default, where the document gets whatever version the reader had before.)", "quantifier": "all documents and schema versions, all versions of the reader", "why_tests_cant": "all version numbers and reader histories", "anchors": ["src/autosar/xml/writer.py:Writer._write_document", "src/autosar/xml/reader.py:Reader._read_schema_version", "src/autosar/xml/document.py:DocumentMeta.schema_file"]}
{"id": "C48", "title": "Reading does not depend on the layout of the file", "statement": "Files that differ only in the order of differently tagged parts of an element (outside of lists), in white space between elements, in further parts with a tag that occurred before in the same element, or in elements that no reader method looks for, are read as the same document or element, or raise the same exception, with and without stop_on_error.", "quantifier": "all files, including unreadable ones; all nested combinations of such differences", "why_tests_cant": "all orders at all depths in all element kinds", "anchors": ["src/autosar/xml/reader.py:ChildElementMap", "src/autosar/xml/reader.py:Reader.read_str", "src/autosar/xml/reader.py:Reader.read_str_elem"]}
{"id": "C49", "title": "What was loaded can be saved and loaded again, and then stays the same", "statement": "Whatever a file contains: if it can be loaded, then everything in the loaded document has values of the right types; unless a loaded string is empty or needs escaping, a float has more than 28 digits before the decimal point, a mandatory attribute is missing, text follows an inline element or a connector end refers to a port of the wrong side, the document can be saved; loading the saved file gives the same packages and elements with the same contents except what the round trip is known to lose; and from then on saving and loading changes nothing, neither the document nor the file. Likewise for single elements.", "quantifier": "all files (all element trees an XML parser can yield), all readers and writers, with and without stop_on_error; any number of further saves", "why_tests_cant": "files of other tools are arbitrary: all orders, repetitions, unknown elements, spellings of numbers and nestings", "anchors": ["src/autosar/xml/reader.py:Reader.read_str", "src/autosar/xml/reader.py:Reader.read_str_elem", "src/autosar/xml/writer.py:Writer.write_str", "src/autosar/xml/writer.py:Writer.write_str_elem", "src/autosar/xml/base.py:ARObject._assign"]}
{"id": "C50", "title": "An element can be read if its parts can be", "statement": "If each part of an element that the reader looks at can be read and all mandatory parts are there, then the element is read as an object that has exactly these parts as its attributes. (False for some parts, for example introductions and annotations of identifiable elements, for negative sizes, and for alignments and display formats that do not match their patterns: these raise TypeError or ValueError.)", "quantifier": "all elements of all kinds the reader knows, with all combinations of parts", "why_tests_cant": "all combinations of optional parts of about 200 kinds of elements; a mismatch between reader and constructor shows only when a file uses the part", "anchors": ["src/autosar/xml/reader.py:Reader.read_str_elem", "src/autosar/xml/reader.py:Reader._read_identifiable", "src/autosar/xml/element.py:Identifiable", "src/autosar/xml/base.py:ARObject._assign_optional", "src/autosar/xml/base.py:ARObject._assign_int_or_str_pattern", "src/autosar/xml/base.py:ARObject._set_attr_with_strict_type"]}
{"id": "C51", "title": "An element that cannot be read spoils only itself", "statement": "Without stop_on_error a file with elements that cannot be read is read as if these elements were not in it, and all other elements of its packages are in the document, in order. (True of elements of unknown kinds and of those for which ParseError is raised; false if another exception is raised: then the whole file cannot be read.)", "quantifier": "all files, all positions and numbers of unreadable elements at all depths of packages", "why_tests_cant": "all combinations of readable and unreadable elements", "anchors": ["src/autosar/xml/reader.py:Reader.read_str", "src/autosar/xml/reader.py:Reader._read_package_elements", "src/autosar/xml/reader.py:Reader._read_sub_packages"]}
{"id": "C52", "title": "Administrative data makes no difference to the rest of an element", "statement": "An identifiable element with administrative data is read as the same object as without it. (True if the administrative data consists of special data groups with identifiers and data; other administrative data makes the element unreadable.)", "quantifier": "all identifiable elements, all administrative data, at any place among the parts", "why_tests_cant": "all kinds of identifiable elements and all contents of ADMIN-DATA", "anchors": ["src/autosar/xml/reader.py:Reader._read_admin_data", "src/autosar/xml/reader.py:Reader._read_identifiable", "src/autosar/xml/element.py:Identifiable"]}
{"id": "C53", "title": "Whole numbers mean the same in all notations", "statement": "A whole number in a file is read as the number it denotes, and it makes no difference whether it stands there in decimal (with or without sign), hexadecimal (0x), binary (0b) or octal (leading 0) notation. (True of decimal, hexadecimal and binary numbers wherever they are read at all, and for 38 attributes they always are. False of limits, numerical values, array sizes and other attributes, for which hexadecimal and binary numbers make the element unreadable, and of octal numbers, whose digits are taken as decimal digits or which make the element unreadable.)", "quantifier": "all elements a parser can yield at any depth, all attributes with numbers, all numbers and all their notations", "why_tests_cant": "unboundedly many numbers and texts, for every attribute that takes a number", "anchors": ["src/autosar/xml/reader.py:Reader._read_integer", "src/autosar/xml/reader.py:Reader._read_number", "src/autosar/xml/reader.py:Reader"]}
{"id": "C54", "title": "What is read is what the file says", "statement": "Each attribute of an object read from an element, and of the objects in it at every depth, is the value that stands in the place of that attribute in the element (the text, number, boolean, enumeration value, reference, object or list of these in the child with the tag, or the XML attribute, that the AUTOSAR schema has for it); attributes for which nothing stands there are not set, and there are no others. Elements of packages are objects of the classes their tags stand for. Hence also what is written has each value in its place. (False of the validity of scale constraints and the service kind of interfaces, which are not read; initial values with unknown enumeration texts in them are dropped.)", "quantifier": "all elements a parser can yield, all reader methods, all files; for writing all classes of C21, C23-C25 and C42-C46 and all attribute values", "why_tests_cant": "over 500 pairs of attribute and place in 161 classes, nested arbitrarily; a test that writes and reads back does not notice when writer and reader agree on a wrong tag", "anchors": ["src/autosar/xml/reader.py:Reader.read_str_elem", "src/autosar/xml/reader.py:Reader", "src/autosar/xml/writer.py:Writer", "src/autosar/xml/element.py"]}
{"id": "C55", "title": "Events refer to what they were asked for", "statement": "An event made by one of the create_..._event methods of a behaviour starts the runnable of the given name and refers to the port and the data element, operation, mode group or modes that the text given names in the component (R or PR ports for data and mode switches, P or PR ports for operations and mode manager errors; where the text names only a port, the only element or operation there). It is added behind the other events, under a name none of them has; of the others at most one is renamed. What is there can be asked for. A call that raises leaves the behaviour as it was. After any sequence of calls the events have different names. (False: mode switch events with unknown modes and events with bad further arguments may rename an event before they raise; anything behind a second slash is ignored; naming a mode transition raises AttributeError.)", "quantifier": "all behaviours and components, all runnable and event names, all texts, all sequences of calls", "why_tests_cant": "texts, components and earlier events are unbounded; tests create a handful of events in one component and do not look at the other events after a failure", "anchors": ["src/autosar/xml/element.py:SwcInternalBehavior.create_background_event", "src/autosar/xml/element.py:SwcInternalBehavior.create_data_receive_error_event", "src/autosar/xml/element.py:SwcInternalBehavior.create_data_received_event", "src/autosar/xml/element.py:SwcInternalBehavior.create_init_event", "src/autosar/xml/element.py:SwcInternalBehavior.create_operation_invoked_event", "src/autosar/xml/element.py:SwcInternalBehavior.create_swc_mode_manager_error_event", "src/autosar/xml/element.py:SwcInternalBehavior.create_swc_mode_mode_switch_event", "src/autosar/xml/element.py:SwcInternalBehavior.create_timing_event"]}
{"id": "C56", "title": "The generated header declares each type as the workspace says", "statement": "Whatever has been requested from the implementation model, the type definitions generated compile, given the native declarations and the types that others declare; each type asked for that is not declared elsewhere is declared under its name as the C type it stands for in the workspace (base types as their native declaration, values and type references as what they refer to, arrays with size and element type, structures with their members in order), and nothing else is declared. There is a header unless a type is a pointer. Included twice it is empty the second time, and a C++ compiler sees the include of Rte.h and the definitions. (False: a C compiler sees extern \"C\" and refuses every header; types of one name in different packages are both declared; type references are declared even if their type emitter is another; symbols are not used.)", "quantifier": "all workspaces, all histories of requests, all sets of macros defined", "why_tests_cant": "type graphs and histories are unbounded; tests compare a few type definitions with expected text and never look at the whole header", "anchors": ["src/autosar/generator/type_generator.py:TypeGenerator.write_type_header", "src/autosar/generator/type_generator.py:TypeGenerator.write_type_header_str", "src/autosar/generator/type_generator.py:TypeGenerator.write_type_defs_str", "src/autosar/model/implementation.py:ImplementationModel.create_from_ref"]}
{"id": "C57", "title": "The reference to an object says what it is and where", "statement": "ref() of an element in a package, or of any object inside the element that can be referred to, returns a reference whose path is that of the element followed by the names of the objects on the way, and whose destination is the name of the object's class in files; two parts with the same reference have the same names on the way and the same class. While the element is in no package, ref() returns None. (False: the internal behaviour of a component and the mode group of an interface, if they were passed to the constructor as the reader does, and everything in them, have no reference; nor do sub-elements of data types, elements of arrays and records, and arguments of operations.)", "quantifier": "all elements, all places inside them, all paths and names", "why_tests_cant": "57 classes with a ref() of their own at any depth; tests call ref() on a few elements they have built through the create methods, which set the parents, and not on what was read from a file", "anchors": ["src/autosar/xml/element.py:Identifiable._calc_ref_string", "src/autosar/xml/element.py:Identifiable.update_ref_parts", "src/autosar/xml/element.py:SwcInternalBehavior.ref", "src/autosar/xml/element.py:AtomicSoftwareComponentType.__init__", "src/autosar/xml/element.py:ModeSwitchInterface.__init__", "src/autosar/xml/element.py:RunnableEntity.append_data_read_access"]}
{"id": "C58", "title": "The package map leads to the packages of its paths", "statement": "After create_package_map(mapping) each key leads to the package that find() gives for its path, for good, whatever packages are created, looked up or filled afterwards; get_package(key) returns it, and raises KeyError for other keys (RuntimeError if there are none). add_element(key, element) adds the element there: if the name is free find_element(key, name) and find() with the path of the package and the name return the same element; otherwise it raises and nothing changes. Two keys lead to the same package exactly if their paths name the same place, as long as each package is listed by its parent only. (False: a create_package_map that fails, or an empty mapping, loses the keys given before.)", "quantifier": "all mappings, all histories of calls on packages and workspaces before and after", "why_tests_cant": "histories and mappings are unbounded; tests add one element to one package", "anchors": ["src/autosar/xml/workspace.py:Workspace.create_package_map", "src/autosar/xml/workspace.py:Workspace.get_package", "src/autosar/xml/workspace.py:Workspace.add_element", "src/autosar/xml/workspace.py:Workspace.find_element"]}
{"id": "C59", "title": "A configuration file does what the corresponding calls do", "statement": "load_config has the effect of calling create_namespace, create_document, create_document_mapping and set_value for each entry of the file, section by section and in the order of the file, up to the first error; a file in which all names of roles, classes and settings exist is loaded without error, afterwards each namespace of the file answers for roles as if created by a call, the documents and mappings are added, each setting has the value given, and other namespaces and settings are as before. A file that is loaded has the form required. (False: a table is accepted for the packages of a document; settings can have the names of methods, after which settings cannot be changed any more; an error leaves the entries before it in effect; a document without packages raises TypeError.)", "quantifier": "all configurations, all states of the workspace", "why_tests_cant": "configurations are unbounded; tests load one file with well-formed sections", "anchors": ["src/autosar/xml/workspace.py:Workspace.load_config", "src/autosar/xml/workspace.py:Workspace._create_namespace_from_config", "src/autosar/xml/workspace.py:Workspace._create_document_from_config", "src/autosar/xml/workspace.py:Workspace._create_document_mapping_from_config", "src/autosar/xml/element.py:BehaviorSettings.set_value"]}
{"id": "C60", "title": "Adding parts one by one gives the same object as passing them to the constructor", "statement": "An object to which parts are added by calls of its append methods, in any number and order, equals the object the constructor makes of the same arguments with the parts at the ends of the corresponding lists, including the names that runnables give to access points; a value that an append method refuses with TypeError or AssertionError is refused by the constructor in that list too. References to exclusive areas and their paths, which append_can_enter_leave and append_runs_insides also take, count as the objects they stand for.", "quantifier": "all classes with append methods (all but packages), all arguments of the constructor, all sequences of calls with any values", "why_tests_cant": "57 classes with one to twenty such methods; each method checks types on its own; tests build most objects in one of the two ways only", "anchors": ["src/autosar/xml/element.py:RunnableEntity.append_data_read_access", "src/autosar/xml/element.py:RunnableEntity.__init__", "src/autosar/xml/element.py:ExecutableEntity.append_can_enter_leave", "src/autosar/xml/element.py:PRPortPrototype.append_com_spec", "src/autosar/xml/element.py:MixedContentForLongName.append", "src/autosar/xml/element.py:SwValues.append", "src/autosar/xml/element.py:InternalBehavior.append_exclusive_area", "src/autosar/xml/element.py:RteEvent.append_disabled_mode"]}
{"id": "C61", "title": "References lead to the same objects after a file has been written and read", "statement": "In the document obtained by writing and reading a document, find with any string gives what it gave before: the same exception, None, or the package, element or part of an element with the same class and name and the contents that remain after writing and reading. The path of names of a package, an element, a port, component prototype, connector, mode, mode transition or sub-element leads to it before and after, and so does what its ref() returns where it has one.", "quantifier": "all documents that can be written (C22), all strings, all packages, elements and parts of elements at any depth of packages", "why_tests_cant": "references connect arbitrary places of arbitrarily nested packages; whether the same string leads to the same object depends on every name on the way surviving, and on no other name intervening", "anchors": ["src/autosar/xml/element.py:PackageCollection.find", "src/autosar/xml/element.py:Package.find", "src/autosar/xml/element.py:SwComponentType.find", "src/autosar/xml/element.py:CompositionSwComponentType.find", "src/autosar/xml/element.py:ModeDeclarationGroup.find", "src/autosar/xml/element.py:ImplementationDataType.find", "src/autosar/xml/base.py:_find_by_name", "src/autosar/xml/writer.py:Writer.write_str", "src/autosar/xml/reader.py:Reader.read_str"]}
{"id": "C62", "title": "Methods that create parts call the constructor with the arguments of the same names", "statement": "The methods that create a part of an element (data elements, parameters, operations, arguments in each direction, possible errors, modes, mode groups, component prototypes, internal behaviors, exclusive areas, invalidation policies, references to errors) return the object that the constructor of the part makes of the arguments of the same names, whether these are given by position or by name. The owner is afterwards the one its constructor makes of its own arguments with this part at the end of the list (or in place of the one before). If the part's constructor raises an exception, so does the method. Too many arguments, an argument given twice, one that the method itself supplies and no name raise TypeError. Where the name may be left out it is the name of the component type, or the name of the component followed by _InternalBehavior.", "quantifier": "all elements the constructor makes, all of these methods, all lists of arguments by position and by name, all values", "why_tests_cant": "arguments are handed on by position to constructors with other parameter lists; a swapped or dropped one shows only for the combinations of arguments that a test happens to give", "anchors": ["src/autosar/xml/element.py:ModeDeclarationGroup.create_mode_declaration", "src/autosar/xml/element.py:SenderReceiverInterface.create_data_element", "src/autosar/xml/element.py:SenderReceiverInterface.create_invalidation_policy", "src/autosar/xml/element.py:NvDataInterface.create_data_element", "src/autosar/xml/element.py:ParameterInterface.create_parameter", "src/autosar/xml/element.py:ClientServerOperation.create_argument", "src/autosar/xml/element.py:ClientServerOperation.create_in_argument", "src/autosar/xml/element.py:ClientServerOperation.create_inout_argument", "src/autosar/xml/element.py:ClientServerOperation.create_out_argument", "src/autosar/xml/element.py:ClientServerOperation.create_possible_error_ref", "src/autosar/xml/element.py:ClientServerInterface.create_operation", "src/autosar/xml/element.py:ClientServerInterface.create_possible_error", "src/autosar/xml/element.py:ModeSwitchInterface.create_mode_group", "src/autosar/xml/element.py:AtomicSoftwareComponentType.create_internal_behavior", "src/autosar/xml/element.py:CompositionSwComponentType.create_component_prototype", "src/autosar/xml/element.py:InternalBehavior.create_exclusive_area"]}
{"id": "C63", "title": "Elements and documents survive in every schema version", "statement": "What a writer with some schema version writes, a reader with the same schema version reads back with the same contents (up to what does not survive in any version), for versions before 50 too, where the exclusive areas of runnables are written as plain references. Documents with root attributes are read back by readers with any version, those without by readers on the same side of version 50. Before version 50 a runnable with an exclusive area entry that names no exclusive area is refused with an exception. From version 50 on, writing and reading do not depend on the version.", "quantifier": "all schema versions, all components, behaviors, runnables, events and access points, all documents with any packages and elements", "why_tests_cant": "two formats for the same objects at any depth of components and packages; a test of one version and one runnable does not show that entries, order and everything around them survive in the other", "anchors": ["src/autosar/xml/writer.py:Writer._write_executable_entity", "src/autosar/xml/writer.py:Writer._write_runnable_entity", "src/autosar/xml/reader.py:Reader._read_executable_entity", "src/autosar/xml/reader.py:Reader._read_runnable_entity", "src/autosar/xml/element.py:ExecutableEntity.append_can_enter_leave", "src/autosar/xml/element.py:ExecutableEntity.append_runs_insides", "src/autosar/xml/writer.py:Writer.write_str_elem", "src/autosar/xml/reader.py:Reader.read_str_elem", "src/autosar/xml/writer.py:Writer.write_str", "src/autosar/xml/reader.py:Reader.read_str"]}
{"id": "C64", "title": "Python data given for a constant is what is read back", "statement": "A constant made with make_constant from Python data that describes a value (nested lists and tuples of numbers, texts and None, without bools) can be written, and the constant read back has the given name and a value that holds the data: every label, text, number and default pattern and all elements of arrays and records, in their order and at every depth. A float without fractional part may come back as an int. Data that describes no value is refused with the exception for its first fault.", "quantifier": "all names, all Python data of any depth and length, all numbers and labels", "why_tests_cant": "the data is nested to any depth, and constructing, writing and reading are three separate recursions over it that have to agree on every label and order", "anchors": ["src/autosar/xml/element.py:ConstantSpecification.make_constant", "src/autosar/xml/element.py:ValueSpecification.make_value", "src/autosar/xml/writer.py:Writer._write_constant_specification", "src/autosar/xml/reader.py:Reader._read_constant_specification", "src/autosar/xml/writer.py:Writer._write_value_specification_element", "src/autosar/xml/reader.py:Reader._read_value_specification_element"]}
{"id": "C65", "title": "Constraints, conversions and value tables mean the same after saving", "statement": "Everything with limits (internal, physical and scale constraints, anywhere in a data constraint) accepts exactly the same numbers after it has been written and read back, and raises the same exceptions. A constraint made with make_physical or make_internal, written and read back, accepts a number exactly if it lies within the limits given, each included or not as asked for, and has the gradient, difference, monotony, scale constraints and unit given. A conversion made with make_rational, written and read back, gives offset + factor * x for every x, and has the limits and default value given. A table made with make_value_table, written and read back, has exactly the lines its entries stand for, in their order.", "quantifier": "all data constraints and computation methods, all limits, factors, offsets and numbers, all lists of entries", "why_tests_cant": "unboundedly many numbers and limits; what a constraint accepts depends on numbers that are formatted and parsed in between, on two attributes per limit and on arguments passed on by position through three constructors", "anchors": ["src/autosar/xml/element.py:LimitObject.check_value", "src/autosar/xml/element.py:DataConstraint.make_physical", "src/autosar/xml/element.py:DataConstraint.make_internal", "src/autosar/xml/element.py:ConstraintBase", "src/autosar/xml/element.py:Computation.make_rational", "src/autosar/xml/element.py:Computation.make_value_table", "src/autosar/xml/writer.py:Writer._write_limit", "src/autosar/xml/reader.py:Reader._read_limit"]}
{"id": "C66", "title": "The generated type header is the same after saving and loading", "statement": "When a document is written and read back (any schema version), the implementation model made from the document read is the same as the one made from the document written: every create_from_ref returns the same element or raises the same exception, and the header generated from it is the same, line by line. Every base type or implementation data type found with any text has a reference that leads back to it, so that two texts for the same type give one element of the model.", "quantifier": "all documents of well-formed packages, all sequences of requests, all texts as references, all schema versions", "why_tests_cant": "the header depends on chains of references of any length through any number of packages, and attributes are lost on saving, so that it has to be shown for every class that none of those lost is read", "anchors": ["src/autosar/model/implementation.py:ImplementationModel.create_from_ref", "src/autosar/model/implementation.py:ImplementationModel.create_from_element", "src/autosar/generator/type_generator.py:TypeGenerator.write_type_header", "src/autosar/xml/element.py:PackageCollection.find", "src/autosar/xml/element.py:SwBaseType", "src/autosar/xml/element.py:ImplementationDataType", "src/autosar/xml/writer.py:Writer.write_str", "src/autosar/xml/reader.py:Reader.read_str"]}
{"id": "C67", "title": "Connectors made by name survive saving and lead to their ports", "statement": "When create_connector of a composition in a document returns a connector, the two texts name ports of the composition or of the types of its components, the connector is of the kind the two places call for, its references are the paths of exactly these ports and components, and it is put behind the other connectors while everything else in the document stays as it was. The document can then be written and read back in any schema version: the connector is found below the composition, unchanged, and every reference in it leads with find to the port or component it was made from. Conversely two ports that are named and can be joined are joined unless the name of the connector is taken, and in a document that was saved and loaded every call has the same outcome (the same connector or the same exception) as before.", "quantifier": "all documents of well-formed packages with unambiguous names, all compositions at any depth of packages, all pairs of argument values, all schema versions", "why_tests_cant": "the references run through packages and component types anywhere in the document, and every combination of port kinds, places and existing parts, before and after saving, has to be covered", "anchors": ["src/autosar/xml/element.py:CompositionSwComponentType.create_connector", "src/autosar/xml/element.py:CompositionSwComponentType.append_connector", "src/autosar/xml/element.py:CompositionSwComponentType.find", "src/autosar/xml/element.py:AssemblySwConnector", "src/autosar/xml/element.py:DelegationSwConnector", "src/autosar/xml/element.py:PassThroughSwConnector", "src/autosar/xml/element.py:PortInCompositionTypeInstanceRef", "src/autosar/xml/element.py:PackageCollection.find", "src/autosar/xml/writer.py:Writer.write_str", "src/autosar/xml/reader.py:Reader.read_str"]}
{"id": "C68", "title": "Events made by name survive saving and refer to what they were made for", "statement": "When a method for creating events (background, init, timing, data received, data receive error, operation invoked, mode manager error, mode switch) of the behaviour of an application component in a document returns an event, the runnable of the given name is there and the event refers to it by its path; the event is of the class asked for and its references are the paths of exactly the ports, data elements, operations, mode groups and modes the texts name in the document. It is put behind the other events under a name no other event has; at most the last event that had the name chosen for it gets another name, and everything else in the document stays as it was. The document can then be written and read back in any schema version: every element is there as it was and the event is the last one of the behaviour. Conversely, where the runnable and what is named are there, the event is made. In a document that was saved and loaded every call has the same outcome as before, provided the behaviour has been attached to its component again; as loaded, it is not, and then no event about a port can be made.", "quantifier": "all documents of well-formed packages, all application components with a behaviour at any depth of packages, all requests and names, all schema versions", "why_tests_cant": "the references run through ports, interfaces and mode groups anywhere in the document, and the kinds of ports and interfaces, the names of existing events and the state before and after saving combine without bound", "anchors": ["src/autosar/xml/element.py:SwcInternalBehavior.create_background_event", "src/autosar/xml/element.py:SwcInternalBehavior.create_data_received_event", "src/autosar/xml/element.py:SwcInternalBehavior.create_data_receive_error_event", "src/autosar/xml/element.py:SwcInternalBehavior.create_init_event", "src/autosar/xml/element.py:SwcInternalBehavior.create_operation_invoked_event", "src/autosar/xml/element.py:SwcInternalBehavior.create_swc_mode_manager_error_event", "src/autosar/xml/element.py:SwcInternalBehavior.create_swc_mode_mode_switch_event", "src/autosar/xml/element.py:SwcInternalBehavior.create_timing_event", "src/autosar/xml/element.py:SwcInternalBehavior.get_valid_parent", "src/autosar/xml/element.py:AtomicSoftwareComponentType.internal_behavior", "src/autosar/xml/writer.py:Writer.write_str", "src/autosar/xml/reader.py:Reader.read_str"]}
{"id": "C69", "title": "Saving and loading in between makes no difference to a history of calls", "statement": "A document is extended by a history of calls: append of elements and packages to the packages found in it, append of packages to the document, create_connector of the compositions found in it, the append methods of the elements found in it, such as append_port, and make_packages of the document. At any points of the history the document may be saved, with or without root attributes, and what is loaded used from there on. Saving and loading succeed everywhere, every call has the outcome it has when the document is never saved (the same return value, the same exception, or nothing found under the text), and the documents at the end, saved once more, are the same. No package and no element is lost in the history: every package keeps its own attributes, and every element is found under its names in what is loaded at the end, with its class and the attributes that remain when it is written, where lists may be followed by what was added since; what a call adds is still there at the end. A single append puts the item where find leads afterwards, or raises an exception because the name is taken; an append method makes of the element in the document what it makes of the object by itself; a call that raises changes nothing (make_packages: if its argument is a reference, see C71).", "quantifier": "every well-formed document, every finite history of the calls with every well-formed item or part, every text and port reference, every reference for make_packages whose names can be written, and every pattern of saves with every setting for the schema version", "why_tests_cant": "the number of histories and of the points at which they are interrupted has no bound; a test saves one document at one point", "anchors": ["src/autosar/xml/element.py: Package.append", "src/autosar/xml/element.py: PackageCollection.append", "src/autosar/xml/element.py: PackageCollection.find", "src/autosar/xml/element.py: Package.find", "src/autosar/xml/element.py: PackageCollection.make_packages", "src/autosar/xml/element.py: CompositionSwComponentType.create_connector", "src/autosar/xml/element.py: SwComponentType.append_port", "src/autosar/xml/element.py: CompositionSwComponentType.append_component", "src/autosar/xml/writer.py: Writer.write_str", "src/autosar/xml/reader.py: Reader.read_str"]}
{"id": "C70", "title": "Iterations over elements and ports yield what they ask for, whatever is appended meanwhile", "statement": "filter and filter_regex of packages and provide_ports, require_ports and pr_ports of components are iterations that may be suspended while the package or component is extended and other iterations go on. At any time, what such an iteration has yielded are the first of the elements or ports it asks for, in the order of the list, each once; asked for the next, it yields the next of them. It stops only when it has yielded all that are there at that moment, and yields nothing afterwards, whatever is appended. Iterations change nothing. An exception is raised only, and always, if filter_regex is given something that is no pattern or an element has no name, which is not the case in well-formed packages; it is raised when an item is asked for and not by the call. The three iterations over ports together yield every port of a component once. After saving and loading, all of them yield the same elements and ports.", "quantifier": "every package and component, every finite sequence of appends, starts of iterations and requests for items, any number of iterations at the same time, every list of names, every pattern (as a predicate on names); every well-formed document for saving and loading", "why_tests_cant": "the ways in which appends and requests interleave have no bound; a test turns the iterator of one package into a list at once", "anchors": ["src/autosar/xml/element.py: Package.filter", "src/autosar/xml/element.py: Package.filter_regex", "src/autosar/xml/element.py: SwComponentType.provide_ports", "src/autosar/xml/element.py: SwComponentType.require_ports", "src/autosar/xml/element.py: SwComponentType.pr_ports", "src/autosar/xml/element.py: Package.append", "src/autosar/xml/element.py: SwComponentType.append_port"]}
{"id": "C71", "title": "make_packages gives documents exactly the packages that are missing, before or after saving", "statement": "make_packages(ref) on a document returns the package at the end of the way, which find(ref) then finds, unless an element is in the way. All that has changed is that the packages on the way that were missing are there, after those that were there, with a name and nothing else; every other package keeps its attributes and elements and every element is where it was. If the package is there already it is returned and nothing changes; if an element has one of the names, the exception is KeyError and nothing changes. A slash at the end makes no difference; where one slash follows another, the exception is ValueError, but the packages before the slashes have been made. There are no other exceptions, whatever the text is, and a call that returned a package returns the same package when it is repeated and changes nothing. It makes no difference whether the document is saved and loaded before or after the call.", "quantifier": "every well-formed document, every reference, with or without a slash at the beginning; every text for the exceptions, what is kept and repeated calls", "why_tests_cant": "the trees of packages and the references have no bound, and what is kept is about all other packages and elements", "anchors": ["src/autosar/xml/element.py: PackageCollection.make_packages", "src/autosar/xml/element.py: PackageCollection.create_package", "src/autosar/xml/element.py: Package.make_packages", "src/autosar/xml/element.py: Package.create_package", "src/autosar/xml/element.py: PackageCollection.find"]}
{"id": "C72", "title": "Com-specs made for the interfaces of documents, before or after saving", "statement": "make_from_port_interface(interface, ...), called for a sender-receiver or client-server interface of a document whose data elements or operations have different names, returns specifications for the parts of the interface: each has the class for its part (for data elements queued if and only if the implementation policy of the first variant of its properties is QUEUED), the reference that leads to the part in the document, and the arguments given under the name of the part, or all arguments if it is the only one. Every part named has one, in the order of the interface, and every name is that of a part. In the document that is read after saving, the calls have the same outcomes: the same specifications or the same exception, also for references where nothing or something else is found, and the same for create_p_port, create_r_port and create_pr_port; and each data element is queued if and only if it was.", "quantifier": "every well-formed document, every interface or text, all keyword arguments, whatever the constructors of the specifications accept", "why_tests_cant": "documents, interfaces and arguments have no bound, and both reading the attributes after loading and the choice of the class depend on them", "anchors": ["src/autosar/xml/element.py: ProvidePortComSpec.make_from_port_interface", "src/autosar/xml/element.py: RequirePortComSpec.make_from_port_interface", "src/autosar/xml/element.py: VariableDataPrototype.is_queued", "src/autosar/xml/element.py: SwDataDefPropsConditional.is_queued", "src/autosar/xml/element.py: SwComponentType.create_p_port", "src/autosar/xml/element.py: SwComponentType.create_r_port", "src/autosar/xml/element.py: SwComponentType.create_pr_port"]}
{"id": "C73", "title": "Access points made in documents, before or after saving", "statement": "create_port_access(texts), called on a runnable of an application component of a document, makes only points that the texts ask for: each refers to the port of the component that its text names and to the part of the interface that the text means, and this interface is the one in the document to which the port refers; the kind of the point is one for the class of the port and the class of the interface. A text in the documented form ([PREFIX:]port[/element], prefix in any case) makes exactly the point that is documented for it, with the name from the settings, if names are not repeated and the mode group knows its interface. A text of another form, or that names no port of the component, raises ValueError, one that means no part of the interface raises an exception, and neither makes a point. Several texts make what they make one by one, in their order, up to the first that raises. In the document that is read after saving, the same texts make the same points and end in the same exception, if objects know there what they knew before.", "quantifier": "every well-formed document, every application component in it, every list of texts, every settings", "why_tests_cant": "documents and lists of texts have no bound, and the points depend on interfaces elsewhere in the document, found by references that are read again after loading", "anchors": ["src/autosar/xml/element.py: RunnableEntity.create_port_access", "src/autosar/xml/element.py: SwcInternalBehavior.get_valid_parent", "src/autosar/xml/element.py: BehaviorSettings.get_value"]}
