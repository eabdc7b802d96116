{
 "claims": [
  {
   "property": "C01",
   "status": "proved",
   "theorems": [
    "Verif.Props.C01_assign",
    "Verif.Props.C01_any",
    "Verif.Props.C01_clear"
   ],
   "note": ""
  },
  {
   "property": "C02",
   "status": "partial",
   "theorems": [
    "Verif.Props.C02_partial",
    "Verif.Props.C02_fails",
    "Verif.Props.C02_breaks"
   ],
   "note": "Proved for every history of well-typed operations in which no many-to-many partner is removed while it is listed twice, list assignments and list arguments of constructors do not steal members, and no non-empty list is assigned to PerLength*Impedance.LineSegments (see C64). The unrestricted claim is false: adding a linked many-to-many partner again and removing it leaves the ends in disagreement, in every graph (C02_breaks); so does linking a diagram object or a protection equipment to one of the eight classes that declare the opposite name again (C77_opposite)."
  },
  {
   "property": "C03",
   "status": "proved",
   "theorems": [
    "Verif.Props.C03_exclusive",
    "Verif.Props.C03_clear"
   ],
   "note": ""
  },
  {
   "property": "C04",
   "status": "proved",
   "theorems": [
    "Verif.Props.C04_add",
    "Verif.Props.C04_remove",
    "Verif.Props.C04_members",
    "Verif.Props.C04_members_remove"
   ],
   "note": "Only excluded reference: CIM15 Equipment.OperationalLimitSet (its opposite end does not exist, see C15)."
  },
  {
   "property": "C05",
   "status": "partial",
   "theorems": [
    "Verif.Props.C05_partial",
    "Verif.Props.C05_many",
    "Verif.Props.C05_fails",
    "Verif.Props.C05_witness"
   ],
   "note": "False: removing x from a collection it is not in takes it out of the collection it is in. Proved when x is in no collection, and for many-to-many associations, where ValueError is raised and nothing changes."
  },
  {
   "property": "C06",
   "status": "partial",
   "theorems": [
    "Verif.Props.C06_effect",
    "Verif.Props.C06_iff",
    "Verif.Props.C06_partial",
    "Verif.Props.C06_fails",
    "Verif.Props.C06_witness"
   ],
   "note": "False for lists naming members of other collections; C06_iff characterises exactly when it holds. Non-empty lists assigned to PerLength*Impedance.LineSegments: see C64."
  },
  {
   "property": "C07",
   "status": "proved",
   "theorems": [
    "Verif.Props.C07_symmetric",
    "Verif.Props.C07_remove"
   ],
   "note": "C07_symmetric after every Allowed history, also with repeated adds. C07_remove when both objects list each other once; otherwise see C02_breaks."
  },
  {
   "property": "C08",
   "status": "partial",
   "theorems": [
    "Verif.Props.C08_partial",
    "Verif.Props.C08_fails",
    "Verif.Props.C08_witness"
   ],
   "note": "False: add* appends without a membership test. Proved for histories that add only unlinked partners."
  },
  {
   "property": "C09",
   "status": "partial",
   "theorems": [
    "Verif.Props.C09_partial",
    "Verif.Props.C09_fails",
    "Verif.Props.C09_witness"
   ],
   "note": "False: replacing a non-empty many-to-many collection always raises AttributeError. Proved for an empty collection."
  },
  {
   "property": "C10",
   "status": "proved",
   "theorems": [
    "Verif.Props.C10_ctor",
    "Verif.Props.C10_plain",
    "Verif.Props.C10_oneway"
   ],
   "note": ""
  },
  {
   "property": "C11",
   "status": "partial",
   "theorems": [
    "Verif.Props.C11_effect",
    "Verif.Props.C11_partial",
    "Verif.Props.C11_fails"
   ],
   "note": "False when reference arguments are given along with the offending keyword. Proved for calls without reference arguments."
  },
  {
   "property": "C12",
   "status": "proved",
   "theorems": [
    "Verif.Props.C12_set",
    "Verif.Props.C12_set_one",
    "Verif.Props.C12_add",
    "Verif.Props.C12_addM",
    "Verif.Props.C12_plain",
    "Verif.Props.C07_remove"
   ],
   "note": ""
  },
  {
   "property": "C13",
   "status": "proved",
   "theorems": [
    "Verif.Props.C13_fresh",
    "Verif.Props.C13_separate"
   ],
   "note": ""
  },
  {
   "property": "C14",
   "status": "proved",
   "theorems": [
    "Verif.Props.C14_repeat",
    "Verif.Props.C14_same",
    "Verif.Props.C14_same_one"
   ],
   "note": ""
  },
  {
   "property": "C15",
   "status": "partial",
   "theorems": [
    "Verif.Props.C15_partial",
    "Verif.Props.C15_fails"
   ],
   "note": "Four references of CIM15 have no matching opposite; all others do."
  },
  {
   "property": "C16",
   "status": "partial",
   "theorems": [
    "Verif.Props.C16_resolves",
    "Verif.Props.C16_partial",
    "Verif.Props.C16_fails"
   ],
   "note": "CIM14.ENTSOE.Equipment has two classes OperationalLimit, only one is reachable through the map; everything else proved."
  },
  {
   "property": "C17",
   "status": "partial",
   "theorems": [
    "Verif.Props.C17_partial",
    "Verif.Props.C17_fails"
   ],
   "note": "ACLineSegmentPhase.phase differs; everything else proved."
  },
  {
   "property": "C18",
   "status": "proved",
   "theorems": [
    "Verif.Props.C18_metadata"
   ],
   "note": ""
  },
  {
   "property": "C19",
   "status": "partial",
   "theorems": [
    "Verif.Props.C19_partial",
    "Verif.Props.C19_fails"
   ],
   "note": "False for the compound value classes, true for all classes derived from Element."
  },
  {
   "property": "C20",
   "status": "partial",
   "theorems": [
    "Verif.Props.C20_partial",
    "Verif.Props.C20_fails"
   ],
   "note": "Eight CIM15 classes declare an inherited reference again; everything else proved."
  },
  {
   "property": "C21",
   "status": "proved",
   "theorems": [
    "Verif.Props.C21_inheritance"
   ],
   "note": ""
  },
  {
   "property": "C22",
   "status": "proved",
   "theorems": [
    "Verif.Props.C22_text",
    "Verif.Props.C22_attr",
    "Verif.Props.C22_limits"
   ],
   "note": "C22_limits shows that the excluded characters are really lost."
  },
  {
   "property": "C23",
   "status": "proved",
   "theorems": [
    "Verif.Props.C23_text",
    "Verif.Props.C23_attr"
   ],
   "note": ""
  },
  {
   "property": "C24",
   "status": "partial",
   "theorems": [
    "Verif.Props.C24_tokens",
    "Verif.Props.C24_decl",
    "Verif.Props.C24_nested",
    "Verif.Props.C24_comments",
    "Verif.Props.C24_comment_iff",
    "Verif.Props.C24_comment_fails"
   ],
   "note": "True as stated except for comments: a comment containing &, < or > is written with entities, which XML does not expand inside comments. C24_tokens holds for every call sequence whose comments avoid these characters; C24_comments gives the document written whatever the comments (those without \"--\"), C24_comment_iff says exactly which comments are read back; C24_comment_fails is an instance."
  },
  {
   "property": "C25",
   "status": "proved",
   "theorems": [
    "Verif.Props.C25_unbalanced",
    "Verif.Props.C25_accepts"
   ],
   "note": ""
  },
  {
   "property": "C26",
   "status": "proved",
   "theorems": [
    "Verif.Props.C26_close"
   ],
   "note": ""
  },
  {
   "property": "C27",
   "status": "proved",
   "theorems": [
    "Verif.Props.C27_element",
    "Verif.Props.C27_writes"
   ],
   "note": ""
  },
  {
   "property": "C28",
   "status": "partial",
   "theorems": [
    "Verif.Props.C28_partial",
    "Verif.Props.C28_ignored",
    "Verif.Props.C28_fails"
   ],
   "note": "False: start() merges the keyword arguments into combined_attrib but then loops over attrib, so they never reach the output (C28_ignored, C28_fails). C28_partial: exactly the attrib entries are written, whatever keywords are given."
  },
  {
   "property": "C29",
   "status": "partial",
   "theorems": [
    "Verif.Props.C29_reads",
    "Verif.Props.C29_partial",
    "Verif.Props.C29_raises",
    "Verif.Props.C29_calls",
    "Verif.Props.C29_fails",
    "Verif.Props.C29_attr",
    "Verif.Props.C29_attr_reads",
    "Verif.Props.C29_attr_fails"
   ],
   "note": "False: when some character is not ASCII the already escaped text is escaped a second time, and characters above U+FFFF raise UnicodeError. C29_partial, C29_attr: exactly which texts and attribute values survive; C29_reads, C29_attr_reads give what is read otherwise."
  },
  {
   "property": "C30",
   "status": "partial",
   "theorems": [
    "Verif.Props.C30_partial",
    "Verif.Props.C30_uuid",
    "Verif.Props.C30_fails"
   ],
   "note": "Proved for documents without a property element whose name ends in UUID; such an element overwrites the UUID of the object (C30_uuid: in every document that makes sense; C30_fails is an instance)."
  },
  {
   "property": "C31",
   "status": "proved",
   "theorems": [
    "Verif.Props.C31"
   ],
   "note": "Any documents, any choice of elements; the two calls are equal, including log and exceptions."
  },
  {
   "property": "C32",
   "status": "proved",
   "theorems": [
    "Verif.Props.C32"
   ],
   "note": "For documents that make sense (Sensible) with one element per identifier; links that compete for a to-one reference are excepted."
  },
  {
   "property": "C33",
   "status": "proved",
   "theorems": [
    "Verif.Props.C33_ignored",
    "Verif.Props.C33_reported"
   ],
   "note": "C33_ignored: any document and position. C33_reported: documents without nested descriptions; the report is the \"referenced object missing\" message, or the \"has not attribute\" count when the object has no such attribute."
  },
  {
   "property": "C34",
   "status": "partial",
   "theorems": [
    "Verif.Props.C34_class",
    "Verif.Props.C34_reported",
    "Verif.Props.C34_attribute",
    "Verif.Props.C34_counted",
    "Verif.Props.C34_fails"
   ],
   "note": "False for an element of unknown class inside the description of another object: its properties are applied to that object and the rest of the description is lost (C34_fails). Proved for top-level elements and for attributes."
  },
  {
   "property": "C35",
   "status": "proved",
   "theorems": [
    "Verif.Props.C35_bool",
    "Verif.Props.C35_int",
    "Verif.Props.C35_float",
    "Verif.Props.C35_str",
    "Verif.Props.C35_empty",
    "Verif.Props.C35_default"
   ],
   "note": "In documents that make sense (Sensible). The last statement about the attribute decides. Numbers: the integer denoted by the numeral (IsInt), the float nearest to it (IsFloat; ties to even, overflow to infinity, inf, nan). IsInt and IsFloat are grammars independent of the parsers of the model, which accept exactly them (parseInt_iff, parse_iff)."
  },
  {
   "property": "C36",
   "status": "proved",
   "theorems": [
    "Verif.Props.C36"
   ],
   "note": "In documents that make sense (Sensible)."
  },
  {
   "property": "C37",
   "status": "proved",
   "theorems": [
    "Verif.Props.C37_keeps",
    "Verif.Props.C37_resolves"
   ],
   "note": "C37_keeps for any document; C37_resolves for documents that make sense, unless another statement competes for the same to-one reference."
  },
  {
   "property": "C38",
   "status": "partial",
   "theorems": [
    "Verif.Props.C38_raises",
    "Verif.Props.C38_partial",
    "Verif.Props.C38_fails"
   ],
   "note": "One argument without the other always raises before anything is changed. \"Exactly when\" is false: an int or float attribute with an unusable text also raises ValueError (C38_fails). C38_partial: exactly when for the documents that make sense (Sane) all of whose numbers can be read."
  },
  {
   "property": "C39",
   "status": "proved",
   "theorems": [
    "Verif.Props.C39_version",
    "Verif.Props.C39_detects",
    "Verif.Props.C39_undeclared"
   ],
   "note": ""
  },
  {
   "property": "C40",
   "status": "proved",
   "theorems": [
    "Verif.Props.C40_object",
    "Verif.Props.C40_applies"
   ],
   "note": "C40_object for any document; C40_applies for documents that make sense (Sensible)."
  },
  {
   "property": "C41",
   "status": "proved",
   "theorems": [
    "Verif.Props.C41_malformed"
   ],
   "note": ""
  },
  {
   "property": "C42",
   "status": "proved",
   "theorems": [
    "Verif.Props.C42_independent",
    "Verif.Props.C42_sequence"
   ],
   "note": ""
  },
  {
   "property": "C43",
   "status": "partial",
   "theorems": [
    "Verif.Props.C43_partial",
    "Verif.Props.C43_fails"
   ],
   "note": "Proved for all associations as far as membership is concerned. Missing: the number of entries in a many-to-many collection, which depends on the end the link is stated from (C43_fails; exact lists in C70)."
  },
  {
   "property": "C44",
   "status": "proved",
   "theorems": [
    "Verif.Props.C44"
   ],
   "note": "For every document in which whatever is applied to an object fits its class (Sane): nested descriptions, links stated any number of times from either end, unusable texts (after which cimread has raised) included."
  },
  {
   "property": "C45",
   "status": "partial",
   "theorems": [
    "Verif.Props.C45_partial",
    "Verif.Props.C45_raises",
    "Verif.Props.C45_fails"
   ],
   "note": "False: TypeError for value classes with an identifier, IndexError for resources without \".\" or empty ones, ValueError for unusable numbers, AttributeError for texts in elements of collections (C45_fails). Proved for documents that make sense (Sensible); C45_raises: with unusable texts (no bool, no numeral) in addition, cimread raises ValueError, and only then."
  },
  {
   "property": "C46",
   "status": "proved",
   "theorems": [
    "Verif.Props.C46_document"
   ],
   "note": "For objects of classes derived from Element whose values have a place in an XML document (Writable)."
  },
  {
   "property": "C47",
   "status": "proved",
   "theorems": [
    "Verif.Props.C47_properties"
   ],
   "note": "For the objects of C46. Declaring class means the class of the MRO that lists the attribute."
  },
  {
   "property": "C48",
   "status": "proved",
   "theorems": [
    "Verif.Props.C48_unchanged"
   ],
   "note": "Any argument, also when the call raises."
  },
  {
   "property": "C49",
   "status": "proved",
   "theorems": [
    "Verif.Props.C49_round_trip"
   ],
   "note": "Model15 lists the conditions: consistent heap, all classes of CIM15 derived from Element, keys are the identifiers, values of the declared types (strings for enumerations), characters that XML can carry, referenced objects have identifiers. Members of collections are compared as sets without repetition. Python 3, or Python 2 with an encoding that can express all characters."
  },
  {
   "property": "C50",
   "status": "partial",
   "theorems": [
    "Verif.Props.C50_lost",
    "Verif.Props.C50_fails"
   ],
   "note": "False: collections are not written, so no many-to-many link of any model survives (C50_lost); C50_fails is an instance."
  },
  {
   "property": "C51",
   "status": "proved",
   "theorems": [
    "Verif.Props.C51_part"
   ],
   "note": "For any part of a model as in C49."
  },
  {
   "property": "C52",
   "status": "partial",
   "theorems": [
    "Verif.Props.C52_partial",
    "Verif.Props.C52_namesakes",
    "Verif.Props.C52_fails"
   ],
   "note": "False: the text has the CIM15 namespace and is read as CIM15 (C52_namesakes: for objects of all packages, those without a namesake in CIM15 are missing, the others are objects of the namesake; C52_fails is an instance). C52_partial: objects of any package come back if cimread is given the map of that package and the CIM15 namespace."
  },
  {
   "property": "C53",
   "status": "proved",
   "theorems": [
    "Verif.Props.C53_stable",
    "Verif.Props.C53_again"
   ],
   "note": "C53_stable for models whose references stay inside, C53_again for all models of C49."
  },
  {
   "property": "C54",
   "status": "partial",
   "theorems": [
    "Verif.Props.C54_partial",
    "Verif.Props.C54_lines",
    "Verif.Props.C54_line_ends",
    "Verif.Props.C54_control",
    "Verif.Props.C54_control_id",
    "Verif.Props.C54_control_enum",
    "Verif.Props.C54_control_ref",
    "Verif.Props.C54_fails"
   ],
   "note": "False for carriage returns and control characters (C54_fails). Proved for all other strings, the empty one included. With carriage returns: everything is read back, each CR LF and each CR as LF (C54_lines, C54_line_ends). A plain attribute with a character XML does not have is written without an error and the text cannot be read, whatever else is in the graph (C54_control); the same for identifiers, enumeration values and identifiers of objects referred to (C54_control_id, C54_control_enum, C54_control_ref)."
  },
  {
   "property": "C55",
   "status": "proved",
   "theorems": [
    "Verif.Props.C55_preserves"
   ],
   "note": "On element trees; whole texts: C67."
  },
  {
   "property": "C56",
   "status": "proved",
   "theorems": [
    "Verif.Props.C56_idempotent"
   ],
   "note": "On element trees; whole texts: C68."
  },
  {
   "property": "C57",
   "status": "proved",
   "theorems": [
    "Verif.Props.C57_int"
   ],
   "note": "In the models of C49."
  },
  {
   "property": "C58",
   "status": "partial",
   "theorems": [
    "Verif.Props.C58_partial",
    "Verif.Props.C58_fails"
   ],
   "note": "False for CIM14 ProtectionEquipment.ProtectedSwitches, where cimread raises AttributeError (C58_fails). Proved for documents that make sense (Sensible)."
  },
  {
   "property": "C59",
   "status": "proved",
   "theorems": [
    "Verif.Props.C59_layout",
    "Verif.Props.C59_xmlpp"
   ],
   "note": ""
  },
  {
   "property": "C60",
   "status": "proved",
   "theorems": [
    "Verif.Props.C60_float"
   ],
   "note": "In the models of C49. float() and repr() are modelled on the bits of the double; that 17 digits suffice is proved (search_ok)."
  },
  {
   "property": "C61",
   "status": "partial",
   "theorems": [
    "Verif.Props.C61_partial",
    "Verif.Props.C61_fails"
   ],
   "note": "False for EnergyConsumerPhase.phase only: accepted but not listed in _attrs, so never written."
  },
  {
   "property": "C62",
   "status": "partial",
   "theorems": [
    "Verif.Props.C62_raises",
    "Verif.Props.C62_fails"
   ],
   "note": "False: cimwrite raises AttributeError for every such model (C62_raises); C62_fails is an instance. Models without compound values: C46."
  },
  {
   "property": "C63",
   "status": "partial",
   "theorems": [
    "Verif.Props.C63_partial",
    "Verif.Props.C63_shared",
    "Verif.Props.C63_fails"
   ],
   "note": "False when the very list object of another collection is assigned: both collections then share it (C63_shared: in every graph; C63_fails is an instance). Proved when the assigned list is a copy or made for the purpose."
  },
  {
   "property": "C64",
   "status": "partial",
   "theorems": [
    "Verif.Props.C64_get",
    "Verif.Props.C64_exclusive",
    "Verif.Props.C64_set",
    "Verif.Props.C64_assign",
    "Verif.Props.C64_ctor_too_many",
    "Verif.Props.C64_list_never",
    "Verif.Props.C64_list_fails"
   ],
   "note": "True of reading, assigning and constructing. False of setting LineSegments: the setter writes the private field of the forwarding property, so no line shows the impedance (C64_list_never: in every graph, for every list; C64_list_fails is an instance)."
  },
  {
   "property": "C65",
   "status": "proved",
   "theorems": [
    "Verif.Props.C65_log",
    "Verif.Props.C65_silent",
    "Verif.Props.C65_round"
   ],
   "note": "For documents that make sense (Sensible); other documents: C33, C34."
  },
  {
   "property": "C66",
   "status": "partial",
   "theorems": [
    "Verif.Props.C66_partial",
    "Verif.Props.C66_fails",
    "Verif.Props.C66_fails_doc",
    "Verif.Props.C66_blank_fails"
   ],
   "note": "False with default arguments: the serialiser renames the prefix cim, so cimread reads nothing from any pretty-printed file (C66_fails; C66_fails_doc is an instance). Proved when packageMap or nsURI is given, the prefix rdf is bound to the RDF namespace, and no property element has child elements next to blank text (necessary: C66_blank_fails)."
  },
  {
   "property": "C67",
   "status": "partial",
   "theorems": [
    "Verif.Props.C67_partial",
    "Verif.Props.C67_raises",
    "Verif.Props.C67_cr_fails",
    "Verif.Props.C67_name_fails",
    "Verif.Props.C67_value_fails"
   ],
   "note": "False for carriage returns written as references (C67_cr_fails) and for non-ASCII names (C67_name_fails). Proved for every version of Python for documents without carriage returns in text, and with ASCII local names; in attribute values, carriage returns and tabs are excluded only for the versions that do not write them as references (before 3.9 and 3.7; C67_value_fails)."
  },
  {
   "property": "C68",
   "status": "partial",
   "theorems": [
    "Verif.Props.C68_partial",
    "Verif.Props.C68_fails"
   ],
   "note": "False where Python writes attributes in sorted order (before 3.8): namespace prefixes may be renumbered (C68_fails). Proved for document order, same exclusions as C67."
  },
  {
   "property": "C69",
   "status": "proved",
   "theorems": [
    "Verif.Props.C69_value",
    "Verif.Props.C69_kept",
    "Verif.Props.C69_first",
    "Verif.Props.C69_taken"
   ],
   "note": "For documents that make sense (Sensible)."
  },
  {
   "property": "C70",
   "status": "proved",
   "theorems": [
    "Verif.Props.C70_list",
    "Verif.Props.C70_distinct"
   ],
   "note": "For documents that make sense (Sensible)."
  },
  {
   "property": "C71",
   "status": "proved",
   "theorems": [
    "Verif.Props.C71_list",
    "Verif.Props.C71_order"
   ],
   "note": "For documents that make sense (Sensible)."
  },
  {
   "property": "C72",
   "status": "partial",
   "theorems": [
    "Verif.Props.C72_reads",
    "Verif.Props.C72_inner",
    "Verif.Props.C72_rest",
    "Verif.Props.C72_fails"
   ],
   "note": "False: the properties before the end of the first inner description, also those inside it, are applied to the outer object (C72_inner), those after it to none (C72_rest); C72_fails is an instance. C72_reads gives what is read from every document. Documents without nesting: C35-C37, C69-C71."
  },
  {
   "property": "C73",
   "status": "proved",
   "theorems": [
    "Verif.Props.C73",
    "Verif.Props.C73_many",
    "Verif.Props.C73_forward"
   ],
   "note": "For documents that make sense (Sensible). C73: two files; C73_many: any number. C73_forward: the condition on references cannot be dropped, a reference to an object of a later file is lost."
  },
  {
   "property": "C74",
   "status": "proved",
   "theorems": [
    "Verif.Props.C74_value",
    "Verif.Props.C74_last",
    "Verif.Props.C74_kept",
    "Verif.Props.C74_one"
   ],
   "note": "For documents that make sense (Sensible)."
  },
  {
   "property": "C75",
   "status": "partial",
   "theorems": [
    "Verif.Props.C75_partial",
    "Verif.Props.C75_only_partial",
    "Verif.Props.C75_fails",
    "Verif.Props.C75_only_fails"
   ],
   "note": "False for eighteen attributes and references (C75_fails: each of them is an exception) and five classes (C75_only_fails): CIM15 has additions, seven integer attributes are text, two references of ACLineSegment forward to an added one, one reference of ENTSOE Thing is missing. Proved for everything else."
  },
  {
   "property": "C76",
   "status": "partial",
   "theorems": [
    "Verif.Props.C76_partial",
    "Verif.Props.C76_fails"
   ],
   "note": "False for the seven integer attributes that are text (C76_fails: each of them, in every new object); proved for all others."
  },
  {
   "property": "C77",
   "status": "partial",
   "theorems": [
    "Verif.Props.C77_partial",
    "Verif.Props.C77_forwarding",
    "Verif.Props.C77_opposite",
    "Verif.Props.C77_redeclared",
    "Verif.Props.C77_fails"
   ],
   "note": "False for eight classes of CIM15 that declare an inherited name again for another association, when the link is made from their end (C77_redeclared: each of them, in every graph; C77_fails is an instance). Proved for all other objects: C77_partial, C77_forwarding for line segments and per-length impedances, which go through another name, and C77_opposite for links to the eight classes made from the opposite end (which leave the other association of that name inconsistent)."
  },
  {
   "property": "C78",
   "status": "partial",
   "theorems": [
    "Verif.Props.C78_same",
    "Verif.Props.C78_partial",
    "Verif.Props.C78_default",
    "Verif.Props.C78_misdeclared",
    "Verif.Props.C78_locale",
    "Verif.Props.C78_garbled",
    "Verif.Props.C78_lost",
    "Verif.Props.C78_fails",
    "Verif.Props.C78_locale_fails"
   ],
   "note": "Proved when the XML declaration names the character set of the locale (C78_partial), in particular for the default encoding under a UTF-8 locale (C78_default). False otherwise, since the file is opened in the encoding of the locale whatever the declaration says: then the text is read as written only if it is ASCII (C78_misdeclared, C78_locale); encoding=\"iso-8859-1\" under a UTF-8 locale garbles every other string (C78_garbled, C78_lost; instance C78_fails), the default encoding under a Latin-1 locale gives malformed files (C78_locale_fails)."
  },
  {
   "property": "C79",
   "status": "partial",
   "theorems": [
    "Verif.Props.C79_partial",
    "Verif.Props.C79_end",
    "Verif.Props.C79_twice",
    "Verif.Props.C79_unseekable",
    "Verif.Props.C79_fails"
   ],
   "note": "Proved for files that can be set back and stand at their beginning (C79_partial). False for a file that stands at its end, also because it has been read before (C79_end, C79_twice; instance C79_fails) and for files without a working seek (C79_unseekable): these always raise."
  },
  {
   "property": "C80",
   "status": "partial",
   "theorems": [
    "Verif.Props.C80_partial",
    "Verif.Props.C80_collections",
    "Verif.Props.C80_replaces",
    "Verif.Props.C80_fails"
   ],
   "note": "Proved for documents whose statements make sense or are elements without resource (with or without text) of a to-one reference that has no partner at that point (Quiet): reading succeeds and everything comes from the other statements; for collections always (C80_collections). False for an empty element of a to-one reference that already has a partner: the partner is replaced by a new object that is not in the result (C80_replaces: in every state of the reader; C80_fails is an instance)."
  },
  {
   "property": "C81",
   "status": "partial",
   "theorems": [
    "Verif.Props.C81_partial",
    "Verif.Props.C81_new",
    "Verif.Props.C81_stale",
    "Verif.Props.C81_fails"
   ],
   "note": "Proved without start_dict (C81_new) and when the document describes no object of start_dict again (C81_partial), for the documents of C44 (Sane: also with descriptions inside others). False otherwise: the described object is replaced in the dict, but collections and references of other objects keep the former one (C81_stale: in every such case; C81_fails is an instance)."
  },
  {
   "property": "C82",
   "status": "proved",
   "theorems": [
    "Verif.Props.C82",
    "Verif.Props.C82_again",
    "Verif.Props.C82_kept"
   ],
   "note": "For documents that make sense (Sensible)."
  },
  {
   "property": "C83",
   "status": "proved",
   "theorems": [
    "Verif.Props.C83",
    "Verif.Props.C83_comment",
    "Verif.Props.C83_instruction",
    "Verif.Props.C83_front_fails"
   ],
   "note": "What a document says is Voc.content, a function of its element tree. The namespaces bound to the prefixes rdf and (without packageMap and nsURI) cim must agree, since the reader goes by these prefixes, and a document element of the CIM namespace, which the reader treats specially, must remain one (SameRoot). C83_comment and C83_instruction are about the text itself, also of malformed files. C83_front_fails: a comment must not displace the XML declaration."
  },
  {
   "property": "C84",
   "status": "proved",
   "theorems": [
    "Verif.Props.C84",
    "Verif.Props.C84_file"
   ],
   "note": "C84_file: a file with the text, in any encoding that extends ASCII, is decoded by the parser to the text."
  },
  {
   "property": "C85",
   "status": "proved",
   "theorems": [
    "Verif.Props.C85_depends"
   ],
   "note": "For any writer, any encoding, also for calls that fail: same exception after the same text."
  },
  {
   "property": "C86",
   "status": "proved",
   "theorems": [
    "Verif.Props.C86_parts"
   ],
   "note": "For encodings whose encoder does not fail (str of Python 3). An empty dict gives an empty element instead of head and end tag."
  },
  {
   "property": "C87",
   "status": "proved",
   "theorems": [
    "Verif.Props.C87_pieces"
   ],
   "note": "For the models of C49, parts not empty. What comes back is Back, as in C49."
  },
  {
   "property": "C88",
   "status": "proved",
   "theorems": [
    "Verif.Props.C88_merge"
   ],
   "note": "The objects of the whole model in the order of the parts."
  },
  {
   "property": "C89",
   "status": "proved",
   "theorems": [
    "Verif.Props.C89_links",
    "Verif.Props.C89_exactly",
    "Verif.Props.C89_values",
    "Verif.Props.C89_attrs",
    "Verif.Props.C89_refs",
    "Verif.Props.C89_model",
    "Verif.Props.C73_forward"
   ],
   "note": "C89_links: documents that make sense, read into a new dictionary; also all objects with their classes are there. C89_model: the models of C49 in two parts. The opposite end of the reference is a collection, which cimwrite does not write; a one-to-one reference is stated by the other file too. C89_exactly: every link that is there is stated so, and those stated so whose to-one ends get no other partner are there. C89_refs: the links of the models of C49, but many-to-many ones. C89_values: attributes set by the constructor; C89_attrs: of the models of C49, all come back."
  }
 ]
}