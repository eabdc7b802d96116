#!/usr/bin/env python3
"""Writes MANIFEST.json."""
import json, os
P = 'Verif.Props.'
C = [
 ('C01', 'proved', 'C01_assign C01_any C01_clear', ''),
 ('C02', 'partial', 'C02_partial C02_fails C02_breaks', 'Proved for every history of well-typed operations in which no many-to-many partner is removed while it is listed twice, list assignments and list arguments of constructors do not steal members, and no non-empty list is assigned to PerLength*Impedance.LineSegments (see C64). The unrestricted claim is false: adding a linked many-to-many partner again and removing it leaves the ends in disagreement, in every graph (C02_breaks); so does linking a diagram object or a protection equipment to one of the eight classes that declare the opposite name again (C77_opposite).'),
 ('C03', 'proved', 'C03_exclusive C03_clear', ''),
 ('C04', 'proved', 'C04_add C04_remove C04_members C04_members_remove', 'Only excluded reference: CIM15 Equipment.OperationalLimitSet (its opposite end does not exist, see C15).'),
 ('C05', 'partial', 'C05_partial C05_many C05_fails C05_witness', 'False: removing x from a collection it is not in takes it out of the collection it is in. Proved when x is in no collection, and for many-to-many associations, where ValueError is raised and nothing changes.'),
 ('C06', 'partial', 'C06_effect C06_iff C06_partial C06_fails C06_witness', 'False for lists naming members of other collections; C06_iff characterises exactly when it holds. Non-empty lists assigned to PerLength*Impedance.LineSegments: see C64.'),
 ('C07', 'proved', 'C07_symmetric C07_remove', 'C07_symmetric after every Allowed history, also with repeated adds. C07_remove when both objects list each other once; otherwise see C02_breaks.'),
 ('C08', 'partial', 'C08_partial C08_fails C08_witness', 'False: add* appends without a membership test. Proved for histories that add only unlinked partners.'),
 ('C09', 'partial', 'C09_partial C09_fails C09_witness', 'False: replacing a non-empty many-to-many collection always raises AttributeError. Proved for an empty collection.'),
 ('C10', 'proved', 'C10_ctor C10_plain C10_oneway', ''),
 ('C11', 'partial', 'C11_effect C11_partial C11_fails', 'False when reference arguments are given along with the offending keyword. Proved for calls without reference arguments.'),
 ('C12', 'proved', 'C12_set C12_set_one C12_add C12_addM C12_plain C07_remove', ''),
 ('C13', 'proved', 'C13_fresh C13_separate', ''),
 ('C14', 'proved', 'C14_repeat C14_same C14_same_one', ''),
 ('C15', 'partial', 'C15_partial C15_fails', 'Four references of CIM15 have no matching opposite; all others do.'),
 ('C16', 'partial', 'C16_resolves C16_partial C16_fails', 'CIM14.ENTSOE.Equipment has two classes OperationalLimit, only one is reachable through the map; everything else proved.'),
 ('C17', 'partial', 'C17_partial C17_fails', 'ACLineSegmentPhase.phase differs; everything else proved.'),
 ('C18', 'proved', 'C18_metadata', ''),
 ('C19', 'partial', 'C19_partial C19_fails', 'False for the compound value classes, true for all classes derived from Element.'),
 ('C20', 'partial', 'C20_partial C20_fails', 'Eight CIM15 classes declare an inherited reference again; everything else proved.'),
 ('C21', 'proved', 'C21_inheritance', ''),
 ('C22', 'proved', 'C22_text C22_attr C22_limits', 'C22_limits shows that the excluded characters are really lost.'),
 ('C23', 'proved', 'C23_text C23_attr', ''),
 ('C24', 'partial', 'C24_tokens C24_decl C24_nested C24_comments C24_comment_iff C24_comment_fails', 'True as stated except for comments: a comment containing &, < or > is written with entities, which XML does not expand inside comments. C24_tokens holds for every call sequence whose comments avoid these characters; C24_comments gives the document written whatever the comments (those without "--"), C24_comment_iff says exactly which comments are read back; C24_comment_fails is an instance.'),
 ('C25', 'proved', 'C25_unbalanced C25_accepts', ''),
 ('C26', 'proved', 'C26_close', ''),
 ('C27', 'proved', 'C27_element C27_writes', ''),
 ('C28', 'partial', 'C28_partial C28_ignored C28_fails', 'False: start() merges the keyword arguments into combined_attrib but then loops over attrib, so they never reach the output (C28_ignored, C28_fails). C28_partial: exactly the attrib entries are written, whatever keywords are given.'),
 ('C29', 'partial', 'C29_reads C29_partial C29_raises C29_calls C29_fails C29_attr C29_attr_reads C29_attr_fails', 'False: when some character is not ASCII the already escaped text is escaped a second time, and characters above U+FFFF raise UnicodeError. C29_partial, C29_attr: exactly which texts and attribute values survive; C29_reads, C29_attr_reads give what is read otherwise.'),
 ('C30', 'partial', 'C30_partial C30_uuid C30_fails', 'Proved for documents without a property element whose name ends in UUID; such an element overwrites the UUID of the object (C30_uuid: in every document that makes sense; C30_fails is an instance).'),
 ('C31', 'proved', 'C31', 'Any documents, any choice of elements; the two calls are equal, including log and exceptions.'),
 ('C32', 'proved', 'C32', 'For documents that make sense (Sensible) with one element per identifier; links that compete for a to-one reference are excepted.'),
 ('C33', 'proved', 'C33_ignored C33_reported', 'C33_ignored: any document and position. C33_reported: documents without nested descriptions; the report is the "referenced object missing" message, or the "has not attribute" count when the object has no such attribute.'),
 ('C34', 'partial', 'C34_class C34_reported C34_attribute C34_counted C34_fails', 'False for an element of unknown class inside the description of another object: its properties are applied to that object and the rest of the description is lost (C34_fails). Proved for top-level elements and for attributes.'),
 ('C35', 'proved', 'C35_bool C35_int C35_float C35_str C35_empty C35_default', 'In documents that make sense (Sensible). The last statement about the attribute decides. Numbers: the integer denoted by the numeral (IsInt), the float nearest to it (IsFloat; ties to even, overflow to infinity, inf, nan). IsInt and IsFloat are grammars independent of the parsers of the model, which accept exactly them (parseInt_iff, parse_iff).'),
 ('C36', 'proved', 'C36', 'In documents that make sense (Sensible).'),
 ('C37', 'proved', 'C37_keeps C37_resolves', 'C37_keeps for any document; C37_resolves for documents that make sense, unless another statement competes for the same to-one reference.'),
 ('C38', 'partial', 'C38_raises C38_partial C38_fails', 'One argument without the other always raises before anything is changed. "Exactly when" is false: an int or float attribute with an unusable text also raises ValueError (C38_fails). C38_partial: exactly when for the documents that make sense (Sane) all of whose numbers can be read.'),
 ('C39', 'proved', 'C39_version C39_detects C39_undeclared', ''),
 ('C40', 'proved', 'C40_object C40_applies', 'C40_object for any document; C40_applies for documents that make sense (Sensible).'),
 ('C41', 'proved', 'C41_malformed', ''),
 ('C42', 'proved', 'C42_independent C42_sequence', ''),
 ('C43', 'partial', 'C43_partial C43_fails', 'Proved for all associations as far as membership is concerned. Missing: the number of entries in a many-to-many collection, which depends on the end the link is stated from (C43_fails; exact lists in C70).'),
 ('C44', 'proved', 'C44', 'For every document in which whatever is applied to an object fits its class (Sane): nested descriptions, links stated any number of times from either end, unusable texts (after which cimread has raised) included.'),
 ('C45', 'partial', 'C45_partial C45_raises C45_fails', 'False: TypeError for value classes with an identifier, IndexError for resources without "." or empty ones, ValueError for unusable numbers, AttributeError for texts in elements of collections (C45_fails). Proved for documents that make sense (Sensible); C45_raises: with unusable texts (no bool, no numeral) in addition, cimread raises ValueError, and only then.'),
 ('C46', 'proved', 'C46_document', 'For objects of classes derived from Element whose values have a place in an XML document (Writable).'),
 ('C47', 'proved', 'C47_properties', 'For the objects of C46. Declaring class means the class of the MRO that lists the attribute.'),
 ('C48', 'proved', 'C48_unchanged', 'Any argument, also when the call raises.'),
 ('C49', 'proved', 'C49_round_trip', 'Model15 lists the conditions: consistent heap, all classes of CIM15 derived from Element, keys are the identifiers, values of the declared types (strings for enumerations), characters that XML can carry, referenced objects have identifiers. Members of collections are compared as sets without repetition. Python 3, or Python 2 with an encoding that can express all characters.'),
 ('C50', 'partial', 'C50_lost C50_fails', 'False: collections are not written, so no many-to-many link of any model survives (C50_lost); C50_fails is an instance.'),
 ('C51', 'proved', 'C51_part', 'For any part of a model as in C49.'),
 ('C52', 'partial', 'C52_partial C52_namesakes C52_fails', 'False: the text has the CIM15 namespace and is read as CIM15 (C52_namesakes: for objects of all packages, those without a namesake in CIM15 are missing, the others are objects of the namesake; C52_fails is an instance). C52_partial: objects of any package come back if cimread is given the map of that package and the CIM15 namespace.'),
 ('C53', 'proved', 'C53_stable C53_again', 'C53_stable for models whose references stay inside, C53_again for all models of C49.'),
 ('C54', 'partial', 'C54_partial C54_lines C54_line_ends C54_control C54_control_id C54_control_enum C54_control_ref C54_fails', 'False for carriage returns and control characters (C54_fails). Proved for all other strings, the empty one included. With carriage returns: everything is read back, each CR LF and each CR as LF (C54_lines, C54_line_ends). A plain attribute with a character XML does not have is written without an error and the text cannot be read, whatever else is in the graph (C54_control); the same for identifiers, enumeration values and identifiers of objects referred to (C54_control_id, C54_control_enum, C54_control_ref).'),
 ('C55', 'proved', 'C55_preserves', 'On element trees; whole texts: C67.'),
 ('C56', 'proved', 'C56_idempotent', 'On element trees; whole texts: C68.'),
 ('C57', 'proved', 'C57_int', 'In the models of C49.'),
 ('C58', 'partial', 'C58_partial C58_fails', 'False for CIM14 ProtectionEquipment.ProtectedSwitches, where cimread raises AttributeError (C58_fails). Proved for documents that make sense (Sensible).'),
 ('C59', 'proved', 'C59_layout C59_xmlpp', ''),
 ('C60', 'proved', 'C60_float', 'In the models of C49. float() and repr() are modelled on the bits of the double; that 17 digits suffice is proved (search_ok).'),
 ('C61', 'partial', 'C61_partial C61_fails', 'False for EnergyConsumerPhase.phase only: accepted but not listed in _attrs, so never written.'),
 ('C62', 'partial', 'C62_raises C62_fails', 'False: cimwrite raises AttributeError for every such model (C62_raises); C62_fails is an instance. Models without compound values: C46.'),
 ('C63', 'partial', 'C63_partial C63_shared C63_fails', 'False when the very list object of another collection is assigned: both collections then share it (C63_shared: in every graph; C63_fails is an instance). Proved when the assigned list is a copy or made for the purpose.'),
 ('C64', 'partial', 'C64_get C64_exclusive C64_set C64_assign C64_ctor_too_many C64_list_never C64_list_fails', 'True of reading, assigning and constructing. False of setting LineSegments: the setter writes the private field of the forwarding property, so no line shows the impedance (C64_list_never: in every graph, for every list; C64_list_fails is an instance).'),
 ('C65', 'proved', 'C65_log C65_silent C65_round', 'For documents that make sense (Sensible); other documents: C33, C34.'),
 ('C66', 'partial', 'C66_partial C66_fails C66_fails_doc C66_blank_fails', 'False with default arguments: the serialiser renames the prefix cim, so cimread reads nothing from any pretty-printed file (C66_fails; C66_fails_doc is an instance). Proved when packageMap or nsURI is given, the prefix rdf is bound to the RDF namespace, and no property element has child elements next to blank text (necessary: C66_blank_fails).'),
 ('C67', 'partial', 'C67_partial C67_raises C67_cr_fails C67_name_fails C67_value_fails', 'False for carriage returns written as references (C67_cr_fails) and for non-ASCII names (C67_name_fails). Proved for every version of Python for documents without carriage returns in text, and with ASCII local names; in attribute values, carriage returns and tabs are excluded only for the versions that do not write them as references (before 3.9 and 3.7; C67_value_fails).'),
 ('C68', 'partial', 'C68_partial C68_fails', 'False where Python writes attributes in sorted order (before 3.8): namespace prefixes may be renumbered (C68_fails). Proved for document order, same exclusions as C67.'),
 ('C69', 'proved', 'C69_value C69_kept C69_first C69_taken', 'For documents that make sense (Sensible).'),
 ('C70', 'proved', 'C70_list C70_distinct', 'For documents that make sense (Sensible).'),
 ('C71', 'proved', 'C71_list C71_order', 'For documents that make sense (Sensible).'),
 ('C72', 'partial', 'C72_reads C72_inner C72_rest C72_fails', 'False: the properties before the end of the first inner description, also those inside it, are applied to the outer object (C72_inner), those after it to none (C72_rest); C72_fails is an instance. C72_reads gives what is read from every document. Documents without nesting: C35-C37, C69-C71.'),
 ('C73', 'proved', 'C73 C73_many C73_forward', 'For documents that make sense (Sensible). C73: two files; C73_many: any number. C73_forward: the condition on references cannot be dropped, a reference to an object of a later file is lost.'),
 ('C74', 'proved', 'C74_value C74_last C74_kept C74_one', 'For documents that make sense (Sensible).'),
 ('C75', 'partial', 'C75_partial C75_only_partial C75_fails C75_only_fails', 'False for eighteen attributes and references (C75_fails: each of them is an exception) and five classes (C75_only_fails): CIM15 has additions, seven integer attributes are text, two references of ACLineSegment forward to an added one, one reference of ENTSOE Thing is missing. Proved for everything else.'),
 ('C76', 'partial', 'C76_partial C76_fails', 'False for the seven integer attributes that are text (C76_fails: each of them, in every new object); proved for all others.'),
 ('C77', 'partial', 'C77_partial C77_forwarding C77_opposite C77_redeclared C77_fails', 'False for eight classes of CIM15 that declare an inherited name again for another association, when the link is made from their end (C77_redeclared: each of them, in every graph; C77_fails is an instance). Proved for all other objects: C77_partial, C77_forwarding for line segments and per-length impedances, which go through another name, and C77_opposite for links to the eight classes made from the opposite end (which leave the other association of that name inconsistent).'),
 ('C78', 'partial', 'C78_same C78_partial C78_default C78_misdeclared C78_locale C78_garbled C78_lost C78_fails C78_locale_fails', 'Proved when the XML declaration names the character set of the locale (C78_partial), in particular for the default encoding under a UTF-8 locale (C78_default). False otherwise, since the file is opened in the encoding of the locale whatever the declaration says: then the text is read as written only if it is ASCII (C78_misdeclared, C78_locale); encoding="iso-8859-1" under a UTF-8 locale garbles every other string (C78_garbled, C78_lost; instance C78_fails), the default encoding under a Latin-1 locale gives malformed files (C78_locale_fails).'),
 ('C79', 'partial', 'C79_partial C79_end C79_twice C79_unseekable C79_fails', 'Proved for files that can be set back and stand at their beginning (C79_partial). False for a file that stands at its end, also because it has been read before (C79_end, C79_twice; instance C79_fails) and for files without a working seek (C79_unseekable): these always raise.'),
 ('C80', 'partial', 'C80_partial C80_collections C80_replaces C80_fails', 'Proved for documents whose statements make sense or are elements without resource (with or without text) of a to-one reference that has no partner at that point (Quiet): reading succeeds and everything comes from the other statements; for collections always (C80_collections). False for an empty element of a to-one reference that already has a partner: the partner is replaced by a new object that is not in the result (C80_replaces: in every state of the reader; C80_fails is an instance).'),
 ('C81', 'partial', 'C81_partial C81_new C81_stale C81_fails', 'Proved without start_dict (C81_new) and when the document describes no object of start_dict again (C81_partial), for the documents of C44 (Sane: also with descriptions inside others). False otherwise: the described object is replaced in the dict, but collections and references of other objects keep the former one (C81_stale: in every such case; C81_fails is an instance).'),
 ('C82', 'proved', 'C82 C82_again C82_kept', 'For documents that make sense (Sensible).'),
 ('C83', 'proved', 'C83 C83_comment C83_instruction C83_front_fails', 'What a document says is Voc.content, a function of its element tree. The namespaces bound to the prefixes rdf and (without packageMap and nsURI) cim must agree, since the reader goes by these prefixes, and a document element of the CIM namespace, which the reader treats specially, must remain one (SameRoot). C83_comment and C83_instruction are about the text itself, also of malformed files. C83_front_fails: a comment must not displace the XML declaration.'),
 ('C84', 'proved', 'C84 C84_file', 'C84_file: a file with the text, in any encoding that extends ASCII, is decoded by the parser to the text.'),
 ('C85', 'proved', 'C85_depends', 'For any writer, any encoding, also for calls that fail: same exception after the same text.'),
 ('C86', 'proved', 'C86_parts', 'For encodings whose encoder does not fail (str of Python 3). An empty dict gives an empty element instead of head and end tag.'),
 ('C87', 'proved', 'C87_pieces', 'For the models of C49, parts not empty. What comes back is Back, as in C49.'),
 ('C88', 'proved', 'C88_merge', 'The objects of the whole model in the order of the parts.'),
 ('C89', 'proved', 'C89_links C89_exactly C89_values C89_attrs C89_refs C89_model C73_forward', 'C89_links: documents that make sense, read into a new dictionary; also all objects with their classes are there. C89_model: the models of C49 in two parts. The opposite end of the reference is a collection, which cimwrite does not write; a one-to-one reference is stated by the other file too. C89_exactly: every link that is there is stated so, and those stated so whose to-one ends get no other partner are there. C89_refs: the links of the models of C49, but many-to-many ones. C89_values: attributes set by the constructor; C89_attrs: of the models of C49, all come back.'),
]
out = {'claims': [{'property': p, 'status': s, 'theorems': [P + t for t in ts.split()], 'note': n} for p, s, ts, n in C]}
json.dump(out, open(os.path.join(os.path.dirname(os.path.abspath(__file__)), '..', 'MANIFEST.json'), 'w'), indent=1)
