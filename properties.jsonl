{"id": "C01", "title": "Assigning a single-valued reference updates both ends", "statement": "After `x.R = y` on a to-one reference whose other end is a collection, `x.R` is y, x occurs exactly once in y's collection, x occurs in no other object's collection for that association, and the call does not raise; after `x.R = None`, x is in no collection.", "quantifier": "every consistent object graph, every x, y and every one-to-many reference name of their classes", "why_tests_cant": "any number of objects of any classes and any earlier history; tests build two or three objects and one or two assignments", "anchors": ["CIM15/IEC61970/Core/Terminal.py:setConnectivityNode", "CIM15/IEC61970/Core/Terminal.py:setConductingEquipment", "CIM15/IEC61970/LoadModel/ConformLoad.py:setLoadGroup"]}
{"id": "C02", "title": "Bi-directional references never disagree", "statement": "After any sequence of object constructions (with or without reference arguments), to-one assignments, add* and remove* calls with values of a class that declares the opposite end, for every association a is reachable from b through one end exactly when b is reachable from a through the other end.", "quantifier": "every finite history of well-typed public operations starting from no objects", "why_tests_cant": "histories are unbounded and the invariant couples every pair of objects", "anchors": ["CIM15/IEC61970/Core/Terminal.py", "CIM15/IEC61970/Core/ConnectivityNode.py", "README.rst:\"Transparent bi-directional reference handling\""]}
{"id": "C03", "title": "One-to-one references are exclusive", "statement": "After `x.R = y` on a one-to-one reference: x.R is y, y's opposite reference is x, the previous partner of x and the previous partner of y (if different) have None, and no third object refers to x or y through this association.", "quantifier": "every consistent object graph and every x, y, including x and y already linked to each other or to others", "why_tests_cant": "any number of objects of any classes and any earlier history; tests build two or three objects and one or two assignments", "anchors": ["CIM15/IEC61970/Core/Terminal.py:setBushingInfo", "CIM15/IEC61970/Generation/Production/ThermalGeneratingUnit.py:setStartupModel"]}
{"id": "C04", "title": "add*/remove* on a collection are the reverse assignment", "statement": "For a to-many end whose other end is to-one, `y.addC(x1,..,xn)` has exactly the effect of assigning `xi.R = y` one after another, `y.removeC(x1,..,xn)` that of `xi.R = None`; the members afterwards are the old members that were not named followed by the named ones in call order (last occurrence wins).", "quantifier": "every object graph, every y and every argument list", "why_tests_cant": "any number of objects of any classes and any earlier history; tests build two or three objects and one or two assignments", "anchors": ["CIM15/IEC61970/Core/ConnectivityNode.py:addTerminals", "CIM15/IEC61970/Core/ConnectivityNode.py:removeTerminals"]}
{"id": "C05", "title": "Removing an object from a collection it is not in changes nothing", "statement": "`y.removeC(x)` when x is not a member of y's collection leaves every reference of every object as it was.", "quantifier": "every consistent object graph, y, x", "why_tests_cant": "needs every third owner of x to be considered", "anchors": ["CIM15/IEC61970/Core/ConnectivityNode.py:removeTerminals"]}
{"id": "C06", "title": "Replacing a collection keeps both ends in agreement", "statement": "After `y.C = [x1,..,xn]` (other end to-one) the collection is that list, each xi refers to y, every former member not in the list refers to nothing, and no object is a member of a collection whose owner it does not refer to.", "quantifier": "every consistent object graph, y and every list of objects, including objects owned by others", "why_tests_cant": "any number of objects of any classes and any earlier history; tests build two or three objects and one or two assignments", "anchors": ["CIM15/IEC61970/Core/ConnectivityNode.py:setTerminals", "PyCIM/Test/CIM15Test.py:test_base_voltage_set_xfmr_ends"]}
{"id": "C07", "title": "Many-to-many membership is symmetric", "statement": "After any sequence of constructions and add*/remove* calls on many-to-many associations, a is in b's collection exactly when b is in a's; remove* of a current member never raises.", "quantifier": "every history of add/remove calls (each object added at most when not yet linked)", "why_tests_cant": "histories are unbounded", "anchors": ["CIM15/IEC61970/Wires/TransformerEnd.py:addToMeshImpedance", "CIM15/IEC61970/Wires/TransformerEnd.py:removeToMeshImpedance"]}
{"id": "C08", "title": "A many-to-many collection holds each partner once", "statement": "After any history of add*/remove* calls no many-to-many collection contains the same object twice, so that one remove* undoes any number of add*.", "quantifier": "every history of add/remove calls", "why_tests_cant": "histories are unbounded", "anchors": ["CIM15/IEC61970/Wires/TransformerEnd.py:addToMeshImpedance"]}
{"id": "C09", "title": "Replacing a many-to-many collection works", "statement": "`y.C = [..]` on a many-to-many association succeeds, un-links every former partner and links every new one.", "quantifier": "every consistent object graph, y, and list", "why_tests_cant": "the failing case depends on earlier history (a non-empty collection)", "anchors": ["CIM15/IEC61970/Wires/TransformerEnd.py:setToMeshImpedance"]}
{"id": "C10", "title": "Reference arguments of a constructor act like assignments", "statement": "`C(R1=v1,..)` yields an object with every attribute at its default except those given, linked exactly as if the object had been created bare and then assigned R1, R2, .. in declaration order; existing links of other associations are unchanged.", "quantifier": "every class, every consistent graph, every set of to-one reference arguments", "why_tests_cant": "any number of objects of any classes and any earlier history; tests build two or three objects and one or two assignments", "anchors": ["CIM15/IEC61970/Core/Terminal.py:__init__"]}
{"id": "C11", "title": "A rejected construction has no effect", "statement": "If a constructor call raises (for example because of an unknown keyword) no existing object is changed.", "quantifier": "every class and keyword set", "why_tests_cant": "needs every combination of keywords and crash points", "anchors": ["CIM15/IEC61970/Core/Terminal.py:__init__", "CIM15/Element.py:__init__", "CIM15/IEC61970/Wires/ACLineSegment.py:__init__"]}
{"id": "C12", "title": "Assignments touch only the two ends involved", "statement": "Assigning, adding or removing a reference changes only: the assigned reference itself, and the opposite ends of its old and new value. All other references, collections and every plain attribute of every object keep their value and order.", "quantifier": "every object graph, operation and every object/attribute not involved", "why_tests_cant": "any number of objects of any classes and any earlier history; tests build two or three objects and one or two assignments", "anchors": ["CIM15/IEC61970/Core/Terminal.py", "CIM15/IEC61970/Core/ConnectivityNode.py"]}
{"id": "C13", "title": "Objects never share default collections", "statement": "Two different objects, or two different to-many references of one object, that were created by constructor calls without list arguments never share one list: adding to one leaves the other unchanged, and every object starts with empty collections and None references.", "quantifier": "every class and any number of constructions", "why_tests_cant": "tests look at a couple of instances", "anchors": ["CIM15/IEC61970/Core/IdentifiedObject.py:__init__"]}
{"id": "C14", "title": "Repeating an assignment is harmless", "statement": "`x.R = y` performed twice (or more) leaves every reference the same as once, including the order of all collections; performed when already true it only moves x to the end of y's collection.", "quantifier": "every consistent graph, x, y, repetition count", "why_tests_cant": "any number of objects of any classes and any earlier history; tests build two or three objects and one or two assignments", "anchors": ["CIM15/IEC61970/Core/Terminal.py:setConnectivityNode"]}
{"id": "C15", "title": "Every association end has a matching opposite end", "statement": "In each CIM package (CIM14, CIM15 and every profile) for every reference with an opposite some class of the same package declares the opposite reference, pointing back by name and with the opposite multiplicity (to-one/to-many, one-to-one, many-to-many).", "quantifier": "all 2 600+ reference declarations of all 1 676 classes", "why_tests_cant": "tests touch a handful of classes; the property is about every declaration", "anchors": ["CIM14", "CIM15"]}
{"id": "C16", "title": "packageMap resolves every class", "statement": "For each package and profile, every key of packageMap names a module that exports a class of exactly that name, and every class of the package occurs in the map.", "quantifier": "all entries of the 16 packageMaps", "why_tests_cant": "finite but large table", "anchors": ["CIM15/__init__.py:packageMap", "CIM14/__init__.py:packageMap"]}
{"id": "C17", "title": "Declared defaults are the constructor defaults", "statement": "For every class and attribute in _attrs the value recorded in _defaults is the value a freshly constructed object has.", "quantifier": "all classes and attributes", "why_tests_cant": "finite but large table", "anchors": ["CIM15/IEC61970/WiresPhaseModel/ACLineSegmentPhase.py"]}
{"id": "C18", "title": "Class metadata is well formed", "statement": "For every class: _defaults and _attr_types have exactly the keys _attrs, _enums only names attributes, _many_refs only names references, each default has the declared type, no name is listed twice, no name is both attribute and reference, and the names are legal as the last segment of an XML tag.", "quantifier": "all classes", "why_tests_cant": "finite but large table", "anchors": ["CIM15", "CIM14"]}
{"id": "C19", "title": "The reader can instantiate every mapped class", "statement": "For every class in a packageMap, an element of that class with an rdf:ID is turned into an object without raising.", "quantifier": "all entries of the packageMaps", "why_tests_cant": "finite but large table", "anchors": ["PyCIM/RDFXMLReader.py:cimread", "CIM15/IEC61968/Common/Status.py"]}
{"id": "C20", "title": "No inherited name is redefined", "statement": "Along every inheritance chain each attribute or reference name is declared by exactly one class.", "quantifier": "all classes of all packages", "why_tests_cant": "finite but large table", "anchors": ["CIM15/IEC61970/Graphics/DiagramObjectStyle.py", "CIM15/IEC61970/Wires/ProtectedSwitch.py"]}
{"id": "C21", "title": "Inheritance stays inside a package and ends in Element", "statement": "Every class chain is acyclic, consists of classes of its own package, and ends in that package's Element (or is a stand-alone value class).", "quantifier": "all classes", "why_tests_cant": "finite but large table", "anchors": ["CIM15/Element.py"]}
{"id": "C22", "title": "Escaping is undone by an XML parser", "statement": "Text or attribute values passed through the writer's escaping and read back by an XML 1.0 parser are the original string.", "quantifier": "every string of XML characters (text without CR; attribute values also without TAB/LF)", "why_tests_cant": "infinitely many strings, including all interactions of &, <, >, quotes and entity-like substrings", "anchors": ["PyCIM/SimpleXMLWriter.py:escape_cdata", "PyCIM/SimpleXMLWriter.py:escape_attrib"]}
{"id": "C23", "title": "Data cannot inject markup", "statement": "The escaped form of any string contains no \"<\" and no \">\", every \"&\" in it starts one of the five predefined entities, and (for attributes) it contains no quote character.", "quantifier": "every string", "why_tests_cant": "infinitely many strings", "anchors": ["PyCIM/SimpleXMLWriter.py:escape_cdata", "PyCIM/SimpleXMLWriter.py:escape_attrib"]}
{"id": "C24", "title": "Every accepted sequence of writer calls produces the document it describes", "statement": "For any sequence of start/data/element/comment/end/close calls that raises nothing, the text written is lexed by an XML parser into exactly the described start tags, attributes, character data, comments and end tags, in order, properly nested once all elements are closed.", "quantifier": "every sequence of calls with legal names and characters", "why_tests_cant": "sequences are unbounded", "anchors": ["PyCIM/SimpleXMLWriter.py:XMLWriter"]}
{"id": "C25", "title": "Unbalanced ends are rejected without output", "statement": "`end()` with no open element and `end(tag)` with a tag other than the innermost open one raise AssertionError, write nothing and leave the writer usable.", "quantifier": "every writer state reachable by any calls", "why_tests_cant": "every history", "anchors": ["PyCIM/SimpleXMLWriter.py:XMLWriter.end"]}
{"id": "C26", "title": "close(id) closes exactly the elements opened since", "statement": "`close(start(..))` after any balanced or unbalanced calls that leave that element open closes it and all elements opened after it, innermost first, and none opened before it.", "quantifier": "every reachable writer state and nesting depth", "why_tests_cant": "every history", "anchors": ["PyCIM/SimpleXMLWriter.py:XMLWriter.close"]}
{"id": "C27", "title": "element() equals start, data, end", "statement": "`element(tag, text, attrib)` writes exactly what `start(tag, attrib)`, `data(text)` (when text is non-empty), `end()` write, and leaves the nesting unchanged.", "quantifier": "every writer state, tag, text, attributes", "why_tests_cant": "every history", "anchors": ["PyCIM/SimpleXMLWriter.py:XMLWriter.element"]}
{"id": "C28", "title": "Keyword attributes are written", "statement": "Attributes given to start()/element() as keyword arguments appear in the start tag, as the API comment documents.", "quantifier": "every tag and keyword set", "why_tests_cant": "every argument combination", "anchors": ["PyCIM/SimpleXMLWriter.py:XMLWriter.start"]}
{"id": "C29", "title": "Non-ASCII text survives us-ascii output (Python 2)", "statement": "With encoding \"us-ascii\", text or an attribute value containing non-ASCII characters is written with numeric references that an XML parser reads back as the original string.", "quantifier": "every string, as text and as attribute value", "why_tests_cant": "infinitely many strings", "anchors": ["PyCIM/SimpleXMLWriter.py:encode_entity", "PyCIM/SimpleXMLWriter.py:escape_cdata", "PyCIM/SimpleXMLWriter.py:escape_attrib"]}
{"id": "C30", "title": "cimread returns exactly the objects of the file", "statement": "The returned dict has exactly the keys of start_dict plus the identifiers of all elements whose class is in the package map; the object under each key has the class named by the (last) element with that identifier, and its UUID is that identifier.", "quantifier": "every well-formed document, package map and start_dict", "why_tests_cant": "documents are unbounded", "anchors": ["PyCIM/RDFXMLReader.py:cimread"]}
{"id": "C31", "title": "rdf:ID=\"x\" and rdf:about=\"#x\" are equivalent", "statement": "Replacing rdf:ID=\"x\" by rdf:about=\"#x\" on any elements leaves the result of cimread unchanged.", "quantifier": "every document and every choice of elements", "why_tests_cant": "unbounded documents", "anchors": ["PyCIM/RDFXMLReader.py:cimread"]}
{"id": "C32", "title": "Element order does not matter", "statement": "For documents with one element per identifier whose statements fit the classes, any permutation of the top-level elements yields the same objects, attribute values, to-one references and collection members, except links that compete for the same to-one reference; in particular references may point forward.", "quantifier": "every such document and permutation", "why_tests_cant": "n! permutations of unbounded documents", "anchors": ["PyCIM/RDFXMLReader.py:cimread"]}
{"id": "C33", "title": "Dangling references are skipped and reported", "statement": "A reference to an identifier that is not in the result is reported in the log and has no other effect: the remaining attributes, references and objects are read as if that element were absent.", "quantifier": "every document and position", "why_tests_cant": "unbounded documents", "anchors": ["PyCIM/RDFXMLReader.py:cimread"]}
{"id": "C34", "title": "Unknown classes and attributes are skipped and reported", "statement": "An element whose class is not in the package map creates no object; an attribute the object does not have is counted in the log; neither affects any other object or attribute.", "quantifier": "every document and position", "why_tests_cant": "unbounded documents", "anchors": ["PyCIM/RDFXMLReader.py:cimread"]}
{"id": "C35", "title": "Literals are converted to the attribute's type", "statement": "An attribute element sets a bool attribute to True exactly when its text is \"true\" in any letter case, an int attribute to the integer its text denotes, a float attribute to float(text), a str attribute to the text; an empty element leaves bool/int/float attributes unchanged.", "quantifier": "every attribute and text", "why_tests_cant": "infinitely many texts", "anchors": ["PyCIM/RDFXMLReader.py:cimread"]}
{"id": "C36", "title": "Enumeration values are the last URI segment", "statement": "A resource that does not start with \"#\" sets the attribute to the part after the last \".\".", "quantifier": "every attribute and URI containing a \".\"", "why_tests_cant": "infinitely many URIs", "anchors": ["PyCIM/RDFXMLReader.py:cimread"]}
{"id": "C37", "title": "start_dict is extended, not rebuilt", "statement": "With start_dict given, cimread returns that same dict; entries whose identifier is not in the file keep their object; references from the file to them are resolved to those objects.", "quantifier": "every document and start_dict", "why_tests_cant": "unbounded", "anchors": ["PyCIM/RDFXMLReader.py:cimread"]}
{"id": "C38", "title": "packageMap and nsURI must be given together", "statement": "cimread raises ValueError exactly when one of packageMap/nsURI is given (truthy) and the other not, before changing start_dict or any object.", "quantifier": "every argument combination and document", "why_tests_cant": "every document", "anchors": ["PyCIM/RDFXMLReader.py:cimread"]}
{"id": "C39", "title": "CIM version detection", "statement": "Without explicit arguments the package map is CIM14's exactly when the \"cim\" prefix is bound to the CIM14 namespace (with or without trailing \"#\"), otherwise CIM15's; elements are recognised exactly in the namespace bound to \"cim\" with one \"#\".", "quantifier": "every namespace table", "why_tests_cant": "infinitely many URIs", "anchors": ["PyCIM/RDFXMLReader.py:get_cim_ns", "PyCIM/RDFXMLReader.py:xmlns", "PyCIM/RDFXMLReader.py:get_rdf_ns"]}
{"id": "C40", "title": "Repeated identifiers", "statement": "If several elements carry the same identifier the result has one object for it, of the class of the last such element with known class, and attributes from all of them are applied to that object.", "quantifier": "every document", "why_tests_cant": "unbounded", "anchors": ["PyCIM/RDFXMLReader.py:cimread"]}
{"id": "C41", "title": "Malformed XML never half-populates objects", "statement": "If the document turns out not to be well formed at any point, cimread raises and no attribute or reference of any object that existed before the call has been changed; new objects have only default values.", "quantifier": "every document prefix (every failure point), every start_dict", "why_tests_cant": "every crash point", "anchors": ["PyCIM/RDFXMLReader.py:cimread"]}
{"id": "C42", "title": "Successive reads are independent", "statement": "Reading files one after another without start_dict yields disjoint sets of objects; a later read changes no object returned by an earlier one.", "quantifier": "every sequence of documents", "why_tests_cant": "unbounded sequences", "anchors": ["PyCIM/RDFXMLReader.py:cimread", "PyCIM/Test/RDFXMLReaderTest.py:test_cim_reads_are_independent"]}
{"id": "C43", "title": "Stating both ends of an association is harmless", "statement": "A file that states the same link from both ends (a.R -> b and b.C -> a), in any order, yields the same links as stating it from one end, with no duplicates.", "quantifier": "every document", "why_tests_cant": "every interleaving of both statements", "anchors": ["PyCIM/RDFXMLReader.py:cimread"]}
{"id": "C44", "title": "The result of cimread is bi-directionally consistent", "statement": "After cimread of any document whose references connect objects of matching classes, every association of every object agrees with its opposite.", "quantifier": "every such document, any start_dict that is consistent", "why_tests_cant": "unbounded documents", "anchors": ["PyCIM/RDFXMLReader.py:cimread"]}
{"id": "C45", "title": "cimread never fails on well-formed XML", "statement": "For well-formed XML input cimread raises no exception whatever the content; unusable content is reported in the log instead.", "quantifier": "every well-formed document", "why_tests_cant": "unbounded documents", "anchors": ["PyCIM/RDFXMLReader.py:cimread"]}
{"id": "C46", "title": "cimwrite writes each object once, as well-formed XML", "statement": "The output is a well-formed document with root rdf:RDF and exactly one child per dict entry, in dict order, with the object's class as tag and its UUID as rdf:ID.", "quantifier": "every model whose objects are CIM objects with XML-character strings", "why_tests_cant": "unbounded models and strings", "anchors": ["PyCIM/RDFXMLWriter.py:cimwrite"]}
{"id": "C47", "title": "Only non-default attributes are written", "statement": "A plain attribute appears in the output exactly when its value differs from the class default, enumerations always, to-one references exactly when not None, collections never; each as one element named after the declaring class.", "quantifier": "every object and attribute", "why_tests_cant": "unbounded", "anchors": ["PyCIM/RDFXMLWriter.py:cimwrite"]}
{"id": "C48", "title": "cimwrite does not change the model", "statement": "Serialising leaves every object unchanged.", "quantifier": "every model, also when it raises", "why_tests_cant": "every model", "anchors": ["PyCIM/RDFXMLWriter.py:cimwrite"]}
{"id": "C49", "title": "Write then read gives back the model", "statement": "cimread(cimwrite(d)) has the same keys in the same order, objects of the same classes, equal values of all declared attributes and enumerations, and to-one references to the object with the same identifier; collections opposite to a to-one reference have the same members.", "quantifier": "every consistent model of CIM15 objects with correctly typed attribute values and XML-safe strings", "why_tests_cant": "unbounded models", "anchors": ["PyCIM/RDFXMLWriter.py:cimwrite", "PyCIM/RDFXMLReader.py:cimread"]}
{"id": "C50", "title": "Many-to-many links survive write/read", "statement": "Links of many-to-many associations are the same after cimread(cimwrite(d)).", "quantifier": "every consistent model", "why_tests_cant": "unbounded models", "anchors": ["PyCIM/RDFXMLWriter.py:cimwrite"]}
{"id": "C51", "title": "References leaving the written set", "statement": "A to-one reference to an object that is not in d is dropped by the round trip and nothing else changes.", "quantifier": "every model and subset d", "why_tests_cant": "unbounded models", "anchors": ["PyCIM/RDFXMLWriter.py:cimwrite", "PyCIM/RDFXMLReader.py:cimread"]}
{"id": "C52", "title": "CIM14 models survive write/read", "statement": "Objects of the CIM14 classes written with cimwrite are read back as CIM14 objects.", "quantifier": "every CIM14 model", "why_tests_cant": "unbounded models", "anchors": ["PyCIM/RDFXMLWriter.py:cimwrite"]}
{"id": "C53", "title": "Serialisation is stable", "statement": "Writing the model obtained by reading a written model produces the same text again; references that leave the model are dropped by the first round trip and from then on the text stays the same.", "quantifier": "every model as in C49", "why_tests_cant": "unbounded models", "anchors": ["PyCIM/RDFXMLWriter.py:cimwrite", "PyCIM/RDFXMLReader.py:cimread"]}
{"id": "C54", "title": "All string attributes survive write/read", "statement": "Any Python string assigned to a string attribute is returned unchanged after cimread(cimwrite(d)).", "quantifier": "every string", "why_tests_cant": "infinitely many strings (control characters, CR, empty)", "anchors": ["PyCIM/RDFXMLWriter.py:cimwrite", "PyCIM/RDFXMLReader.py:cimread"]}
{"id": "C55", "title": "Pretty-printing only changes white space", "statement": "xmlpp leaves tags, attributes, child order, the text of elements without children and every non-blank text unchanged; only blank text between tags is replaced.", "quantifier": "every element tree", "why_tests_cant": "unbounded trees", "anchors": ["PyCIM/PrettyPrintXML.py:indent"]}
{"id": "C56", "title": "Pretty-printing is idempotent", "statement": "Indenting an already indented tree changes nothing.", "quantifier": "every element tree", "why_tests_cant": "unbounded trees", "anchors": ["PyCIM/PrettyPrintXML.py:indent"]}
{"id": "C57", "title": "Integers survive write/read", "statement": "str() of any int attribute value is read back as that int.", "quantifier": "every integer", "why_tests_cant": "infinitely many integers", "anchors": ["PyCIM/RDFXMLWriter.py:cimwrite", "PyCIM/RDFXMLReader.py:cimread"]}
{"id": "C58", "title": "A to-many reference given in a file adds to the collection", "statement": "For each collection reference in the file whose target exists, the target is a member of the collection afterwards and its opposite end refers back, whatever else the file contains about other associations.", "quantifier": "every document", "why_tests_cant": "unbounded", "anchors": ["PyCIM/RDFXMLReader.py:cimread", "CIM14/IEC61970/Protection/ProtectionEquipment.py:add_ProtectedSwitches"]}
{"id": "C59", "title": "Pretty-printing lays elements out by depth", "statement": "In a tree whose text next to child elements is white space, after indenting every child element starts on its own line, indented by two blanks per nesting level, and the end tag of an element with children is on its own line at the level of its start tag.", "quantifier": "every such element tree", "why_tests_cant": "unbounded trees", "anchors": ["PyCIM/PrettyPrintXML.py:indent"]}
{"id": "C60", "title": "Floats survive write/read", "statement": "A float attribute value is read back as the same number; a value equal to the default of the attribute comes back as that default (so the sign of zero may be lost), and NaN comes back as NaN.", "quantifier": "every IEEE double", "why_tests_cant": "2^64 values; shortest repr and correctly rounded conversion", "anchors": ["PyCIM/RDFXMLWriter.py:cimwrite", "PyCIM/RDFXMLReader.py:cimread"]}
{"id": "C61", "title": "Everything a constructor accepts is written", "statement": "Every keyword accepted by the constructor of a class is a declared attribute or reference of it, so that no state of an object is invisible to cimwrite.", "quantifier": "every class of every package", "why_tests_cant": "hundreds of classes, each would need its own test", "anchors": ["PyCIM/RDFXMLWriter.py:cimwrite", "CIM15/IEC61970/WiresPhaseModel/EnergyConsumerPhase.py:EnergyConsumerPhase"]}
{"id": "C62", "title": "Compound values are written", "statement": "cimwrite accepts models in which a to-one reference holds a compound value such as Status.", "quantifier": "every such model", "why_tests_cant": "unbounded models", "anchors": ["PyCIM/RDFXMLWriter.py:cimwrite", "CIM15/IEC61968/Common/Status.py:Status"]}
{"id": "C63", "title": "Collections of different objects are independent", "statement": "After y.C = y1.C, or y.C = any list, a later change of one collection is not visible in the other: adding a member to y through x.R = y changes only the collection of y and the one x leaves.", "quantifier": "every object graph, every list", "why_tests_cant": "unbounded", "anchors": ["CIM15/IEC61970/Wires/RatioTapChangerTabular.py:setRatioTapChangerTabularPoint"]}
{"id": "C64", "title": "Alternative names of a reference agree", "statement": "ACLineSegment.SequenceImpedance and .PhaseImpedance show the value of PerLengthImpedance if it has the respective class and None otherwise, so at most one of them shows an object; assigning to either is assigning to PerLengthImpedance; a constructor call with more than one of them raises ValueError and links nothing; setting PerLength*Impedance.LineSegments has the same effect as assigning the impedance of each line.", "quantifier": "every object graph", "why_tests_cant": "unbounded graphs and histories", "anchors": ["CIM15/IEC61970/Wires/ACLineSegment.py:getSequenceImpedance", "CIM15/IEC61970/Wires/PerLengthSequenceImpedance.py:setLineSegments"]}
{"id": "C65", "title": "The log reports exactly what was not read", "statement": "The log of cimread has one entry for each element of unknown class, each element and each reference naming an object that is not in the result, one counted entry for each pair of class and attribute the objects do not have, entries for namespaces that are not declared or not known, and no others. It is empty exactly when nothing was left out; reading back a model written by cimwrite logs nothing unless a to-one reference leads out of the model.", "quantifier": "every document whose statements fit the classes of their subjects", "why_tests_cant": "unbounded documents", "anchors": ["PyCIM/RDFXMLReader.py:cimread", "PyCIM/RDFXMLReader.py:get_rdf_ns", "PyCIM/RDFXMLReader.py:get_cim_ns"]}
{"id": "C66", "title": "Reading a pretty-printed file is reading the file", "statement": "cimread(xmlpp(f)) gives the same objects, dictionary, log and errors as cimread(f), for every choice of arguments.", "quantifier": "every document", "why_tests_cant": "unbounded documents", "anchors": ["PyCIM/PrettyPrintXML.py:xmlpp", "PyCIM/RDFXMLReader.py:cimread", "PyCIM/RDFXMLReader.py:get_cim_ns"]}
{"id": "C67", "title": "xmlpp returns an equivalent document", "statement": "xmlpp raises exactly when its source is not well-formed. Otherwise its result is a well-formed document with the same elements, qualified names, attributes and text, apart from white space next to tags.", "quantifier": "every text", "why_tests_cant": "unbounded documents", "anchors": ["PyCIM/PrettyPrintXML.py:xmlpp", "PyCIM/PrettyPrintXML.py:indent"]}
{"id": "C68", "title": "xmlpp is idempotent", "statement": "xmlpp(xmlpp(f)) is the same text as xmlpp(f).", "quantifier": "every document", "why_tests_cant": "unbounded documents", "anchors": ["PyCIM/PrettyPrintXML.py:xmlpp", "PyCIM/PrettyPrintXML.py:indent"]}
{"id": "C69", "title": "Competing statements about one reference: the first counts", "statement": "If several elements of a document name a target for the same to-one reference (whose opposite is a collection), the first of them with an existing target counts. A reference the object has before the call is kept. A later statement that adds the object to the collection of another object replaces it.", "quantifier": "every document and every graph it is read into", "why_tests_cant": "unbounded documents; order of statements", "anchors": ["PyCIM/RDFXMLReader.py:cimread"]}
{"id": "C70", "title": "Many-to-many collections list exactly what was stated", "statement": "After cimread a many-to-many collection has its old entries followed by one for every statement about it, in document order, and one for every statement from the other end whose subject is not yet listed. It has no duplicates if no link is stated twice.", "quantifier": "every document", "why_tests_cant": "unbounded documents", "anchors": ["PyCIM/RDFXMLReader.py:cimread", "CIM15/IEC61968/PaymentMetering/ConsumptionTariffInterval.py:addTouTariffIntervals"]}
{"id": "C71", "title": "Collections are in document order", "statement": "After cimread the collection opposite a to-one reference is determined by the statements in document order; if every member states its reference once and the collection itself is not stated, its new members are the objects naming it, in the order of the document.", "quantifier": "every document", "why_tests_cant": "unbounded documents", "anchors": ["PyCIM/RDFXMLReader.py:cimread", "CIM15/IEC61970/Core/Terminal.py:setConductingEquipment"]}
{"id": "C72", "title": "A description inside another one describes its own object", "statement": "If the element describing an object contains an element describing another one, the properties inside the inner element belong to the inner object and all others to the outer one.", "quantifier": "every document", "why_tests_cant": "unbounded nesting; the two passes treat nested elements differently", "anchors": ["PyCIM/RDFXMLReader.py:cimread"]}
{"id": "C73", "title": "A model can be read file by file", "statement": "If a model is split over several files, none of which refers to what only a later one describes, and no object is described in two of them, then reading them in turn, each with the result so far as start_dict, gives the same identifiers, classes, attribute values, references and collections (in the same order) as reading the whole model from one file.", "quantifier": "every document, every split of it into any number of files, every start_dict and object graph", "why_tests_cant": "unbounded documents and splits; the objects of earlier files are shared by the later reads", "anchors": ["PyCIM/RDFXMLReader.py:cimread"]}
{"id": "C74", "title": "One-to-one references after cimread", "statement": "A statement about a one-to-one reference counts, from both ends, if the reference has no partner when it is read and no later statement of another object names one of the two objects. The object named leaves the partner it had, so no two objects have the same partner. A partner of before the call is kept if no other object names one of the two.", "quantifier": "every document and every graph it is read into", "why_tests_cant": "unbounded documents; order of statements", "anchors": ["PyCIM/RDFXMLReader.py:cimread", "CIM15/IEC61970/StateVariables/SvPowerFlow.py:setTerminal"]}
{"id": "C75", "title": "The classes implement the information model", "statement": "Every class of an information model in Model/*.ecore is a class of the corresponding package, with the same base class and exactly the attributes (with the Python type for their data type, or the enumeration) and references (with the same multiplicities and opposite ends) the model gives it; every class of a package is in its information model.", "quantifier": "every class, attribute and reference of all sixteen packages and their information models", "why_tests_cant": "two tables of 1 700 classes each", "anchors": ["Model/CIM15/CIM15.ecore", "CIM15/IEC61970/Core/Terminal.py", "CIM14/__init__.py"]}
{"id": "C76", "title": "New objects have the initial values of the information model", "statement": "The attributes of an object made without arguments, inherited ones included, are the first literal of their enumeration, or the zero of their data type.", "quantifier": "every class, every attribute of its ancestors, every object graph in which the object is made", "why_tests_cant": "all classes and states", "anchors": ["Model/CIM15/CIM15.ecore", "CIM15/IEC61970/Core/Terminal.py"]}
{"id": "C77", "title": "Every association of the information model can be made from either end", "statement": "For every association of the information model and any two objects of the classes it relates, or of classes derived from them: assigning (to-one) or adding (to-many) the one to the other succeeds, and afterwards each end shows the other object under the name the model gives.", "quantifier": "every association, every pair of objects, every object graph", "why_tests_cant": "all associations, classes and states", "anchors": ["Model/CIM15/CIM15.ecore", "CIM15/IEC61970/Core/Terminal.py:setConductingEquipment"]}
{"id": "C78", "title": "Models survive being written to a file and read back", "statement": "After cimwrite(d, path, encoding), cimread(path) gives back the model: every string of the objects, whatever its characters, is read as it was written.", "quantifier": "every model, encoding name and locale", "why_tests_cant": "unbounded strings and models; depends on the locale of the machine", "anchors": ["PyCIM/SimpleXMLWriter.py:__init__", "PyCIM/SimpleXMLWriter.py:declaration", "PyCIM/RDFXMLWriter.py:cimwrite", "PyCIM/RDFXMLReader.py:cimread"]}
{"id": "C79", "title": "An open file can be read like a path", "statement": "cimread(f) of an open file object gives what cimread of its content gives: also directly after writing to it, when it has been read before, and when it is a pipe.", "quantifier": "every content, position and kind of file object", "why_tests_cant": "unbounded contents; three passes over one stream", "anchors": ["PyCIM/RDFXMLReader.py:cimread", "PyCIM/RDFXMLReader.py:xmlns"]}
{"id": "C80", "title": "Elements that name no object leave references as they are", "statement": "An element of a reference or collection that has neither rdf:resource nor text leaves every reference and collection as it is: the result is that of the document without the element.", "quantifier": "every document, object graph and reference", "why_tests_cant": "unbounded documents and graphs", "anchors": ["PyCIM/RDFXMLReader.py:cimread"]}
{"id": "C81", "title": "The objects of the result refer to objects of the result only", "statement": "After cimread every object found at a reference or in a collection of an object of the result is itself in the result, if that was true of start_dict; in particular when a file describes objects of start_dict again.", "quantifier": "every document, start_dict and object graph", "why_tests_cant": "unbounded documents and graphs; concerns objects that can no longer be reached through the result", "anchors": ["PyCIM/RDFXMLReader.py:cimread"]}
{"id": "C82", "title": "Reading a file is reproducible", "statement": "A file that refers only to what it describes gives the same objects, attribute values, references and collections (in the same order) whenever it is read: whatever objects exist, whatever has been read before and whatever start_dict is given, also its own former result. It changes no object that existed before.", "quantifier": "every document, start_dict and object graph", "why_tests_cant": "two executions in arbitrary states", "anchors": ["PyCIM/RDFXMLReader.py:cimread"]}
{"id": "C83", "title": "What is read depends on what a file says, not on how it is written", "statement": "Two files with the same elements of the CIM namespace – same names, nesting, identifiers, resources where there is no identifier, and text where there is neither – are read alike by cimread: same objects, dict, log and exceptions. Comments, processing instructions, CDATA sections, references, quotes, order of attributes, further attributes, white space between elements, prefixes of elements and elements of other namespaces make no difference.", "quantifier": "every pair of documents, packageMap, nsURI, start_dict and object graph", "why_tests_cant": "two executions on unbounded documents", "anchors": ["PyCIM/RDFXMLReader.py:cimread", "PyCIM/RDFXMLReader.py:xmlns"]}
{"id": "C84", "title": "Pretty-printed documents are plain ASCII", "statement": "The text returned by xmlpp consists of ASCII characters only, whatever characters the document contains; so it means the same in every encoding that extends ASCII.", "quantifier": "every document", "why_tests_cant": "unbounded documents, all characters", "anchors": ["PyCIM/PrettyPrintXML.py:xmlpp"]}
{"id": "C85", "title": "The text written depends on the written objects only", "statement": "What cimwrite writes, and whether and how it fails, is determined by the classes, identifiers, attribute values and to-one references (as identifiers) of the objects of the dict, in order. The keys of the dict, the collections, the identity of the objects and everything else in memory make no difference.", "quantifier": "every pair of dicts and object graphs that agree in this", "why_tests_cant": "two executions on unbounded graphs", "anchors": ["PyCIM/RDFXMLWriter.py:cimwrite"]}
{"id": "C86", "title": "Every object is written on its own", "statement": "The text of a non-empty dict is a fixed head, one text per entry in order, and the end tag, where the text of an entry depends on the object and the graph, not on the other entries, its key or its place. Writing succeeds exactly when it does for each entry alone.", "quantifier": "every dict, object graph and encoding", "why_tests_cant": "unbounded dicts; executions related to each other", "anchors": ["PyCIM/RDFXMLWriter.py:cimwrite"]}
{"id": "C87", "title": "A model can be stored in several files", "statement": "If the objects of a model are divided into parts, none of which refers to objects of a later part, each part is written by cimwrite into a file of its own, and the files are read in turn, each with the result so far as start_dict, then the model comes back as from one file: same identifiers in order, classes, attribute values, references across the files, and collections (many-to-many ones stay empty, as with one file).", "quantifier": "every model of CIM15 objects, every division into any number of parts, every object graph it is read into", "why_tests_cant": "unbounded graphs and divisions; references between objects of different files", "anchors": ["PyCIM/RDFXMLWriter.py:cimwrite", "PyCIM/RDFXMLReader.py:cimread"]}
{"id": "C88", "title": "Files can be merged", "statement": "If a model that refers to nothing outside it is stored in several files as in C87, then reading the files in turn and writing the result gives exactly the text cimwrite gives for the whole model.", "quantifier": "every model of CIM15 objects without references to other objects, every division into any number of parts, every object graph it is read into", "why_tests_cant": "unbounded graphs and divisions; equality of texts of different executions", "anchors": ["PyCIM/RDFXMLWriter.py:cimwrite", "PyCIM/RDFXMLReader.py:cimread"]}
{"id": "C89", "title": "A file cannot refer to a later one", "statement": "If a model is split over two files that describe different objects and the second is read with the result of the first as start_dict, all objects are there, but an object of the second file is linked to another object only if the second file says so, from either end. In particular, if the files were written by cimwrite, a to-one reference from the first file to an object of the second whose opposite end is a collection is None afterwards. Nothing else is lost: a link the files do not contradict is there exactly if the second file states it or the first does and the second describes neither object – for files written by cimwrite, the links within the first part and those with a to-one reference at an object of the second part –, and attributes that are not references have the values they have after reading everything at once.", "quantifier": "every document and split of it into two files; every model of CIM15 objects in two parts; every object graph it is read into", "why_tests_cant": "unbounded documents and graphs; absence of a link", "anchors": ["PyCIM/RDFXMLReader.py:cimread", "PyCIM/RDFXMLWriter.py:cimwrite"]}
