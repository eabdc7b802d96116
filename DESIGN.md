# PyCIM in Lean 4 — design of the formal model

## 1. What is modelled

Target: Python 3.6–3.8 (the package imports `xml.etree.cElementTree`, which later
versions removed); the one Python-2-only branch that matters (`us-ascii` output) is modelled
as a separate mode of the XML writer.

### Code of the repository

| Lean module | models | how |
|---|---|---|
| `Verif/Cim/Obj.lean` | the generated property setters, `add*`, `remove*`, `__init__` (five method templates cover 2 623 of the 2 827 reference declarations, the rest are separate kinds) | one function per template, parametrised by reference name and opposite name |
| `Verif/Gen/CIM*.lean` | the class tables (`_attrs`, `_attr_types`, `_defaults`, `_enums`, `_refs`, `_many_refs`, parameters and defaults of `__init__`, base class, `packageMap`, imports) of all 16 packages, generated by `tools/gen.py`, which parses the Python text with `ast` and refuses any method body that is not one of the modelled templates | data |
| `Verif/Gen/Model_*.lean` | the information models `Model/**/*.ecore` (classes, super types, attributes with data types and enumerations, references with multiplicity and opposite), generated by `tools/ecore.py` | data; documentation, lower bounds, `abstract` and default literals (there are none) are left out |
| `Verif/Xml/Writer.lean` | `PyCIM/SimpleXMLWriter.py`, all functions and methods | state machine, function by function |
| `Verif/Cim/Reader.lean` | `PyCIM/RDFXMLReader.py`, `cimread`, `xmlns`, `get_rdf_ns`, `get_cim_ns` | pass 1 and pass 2 as state machines over iterparse events |
| `Verif/Cim/Source.lean` | `cimread` of file objects: position and `seek` between the three uses of `iterparse` | as `Reader.lean`; how much `xmlns` reads is a parameter |
| `Verif/Cim/Write.lean` | `PyCIM/RDFXMLWriter.py`, `cimwrite` | drives the writer state machine |
| `Verif/Xml/Pretty.lean` | `PyCIM/PrettyPrintXML.py`, `indent` | structural recursion on trees |
| `Verif/Xml/Serial.lean` | `xmlpp` with `ElementTree.parse` and `tostring` of the standard library | tree builder over the events of `Tree.lean`; namespace table, escaping and character references as in `ElementTree._serialize_xml`; what differs between versions of Python (order of attributes; TAB and CR in values) is a parameter `Ver` |

### Python and the standard library (not in the repository; modelled because the code relies on it)

| Lean module | models |
|---|---|
| `Verif/Py/Str.lean`, `Num.lean` | `str` operations used by the code (`replace`, slicing, `rsplit`, `title`, `strip`, `str(int)`, `int(str)`); strings are `List Char` |
| `Verif/Py/Float.lean` | `float` as IEEE-754 bit patterns: `==`, `float(str)` (correctly rounded), `str(float)` (shortest text that reads back) |
| `Verif/Py/Heap.lean` | objects with class and `__dict__`, lists with identity, exceptions as values (state kept on exception, as in Python) |
| `Verif/Xml/Lex.lean`, `Tree.lean` | the XML 1.0 parser behind `iterparse` (expat/ElementTree): characters to tokens, entities, line-end and attribute normalisation, namespaces, events |
| `Verif/Py/Bytes.lean`, `Xml/File.lean` | UTF-8 (RFC 3629) and character sets of one byte per character; how expat finds the encoding of a file (byte order mark, declaration) |

### Specification side

| Lean module | content |
|---|---|
| `Verif/Spec/Assoc.lean` | what a user observes of references (`view`), which associations the classes declare (`ends`), agreement of both ends |
| `Verif/Spec/Ops.lean` | user programs as sequences of API calls |
| `Verif/Spec/Xml.lean` | the document a sequence of writer calls describes |
| `Verif/Spec/Read.lean`, `Doc.lean` | what a CIM document says, in terms of identifiers, without reference to the two passes of the reader: statements, classes of subjects, resulting values and links (`Means`), when a document makes sense (`Fits`); the exact value of every reference and collection as a fold over the statements |
| `Verif/Spec/Num.lean`, `Equal.lean` | numerals, correct rounding; Python `==` of values by the numbers they stand for |
| `Verif/Spec/Log.lean` | the messages a document calls for |
| `Verif/Spec/Schema.lean` | what an information model says: multiplicities of both ends, Python type and initial value of an attribute |

### Proof modules

`Cim/Shape, Refine, Abs, Step, Build, Ops` refine the accessor methods to functions on views; `Cim/Framing, Solo` frame
rules; `Py/Round, FloatText` correct rounding, 17 digits determine a float, numerals (`Spec/Num.lean`); `Cim/ReadLemmas, Pass1, Create, Pass2, Links, Exact, Den, Bad, Quiet, Skip, Logs` the reader; `Cim/WriteDoc` the text written by
`cimwrite` as a tree; `Xml/Exec, Sim` simulation between writer and lexer; `Xml/SerialLex, SerialNs, SerialTree, Legal, Same` the serialiser; `Gen/Kernel, Wf, Defs, Check15–18, Models, Ident,
Found, RoundCls, All` kernel evaluations over the complete tables and what they mean for every class.
`Props/*.lean` hold the property theorems; `*Ex.lean` the concrete instances and the witnesses for claims that fail.

## 2. Per property

Statements are in `properties.jsonl`, exact theorem names and remarks on what is missing in `MANIFEST.json`.

| property | theorems in | method |
|---|---|---|
| C01, C03–C07, C09 | `Props/Assoc.lean` | refinement: on a well-formed heap each accessor call succeeds and acts on the view as a given function; then reasoning about views |
| C02, C08 | `Props/Assoc.lean` | invariant `Live` (representation + agreement of both ends) kept by every allowed call, lifted to all histories by induction; witnesses in `AssocEx.lean` |
| C10–C14 | `Props/Frame.lean` | refinement of constructors to assignments; frame rules |
| C15–C21 | `Props/Tables.lean` | `decide +kernel` over the complete tables, lifting lemmas to every class of every package |
| C22–C29 | `Props/Xml.lean`, `Props/Ascii.lean`, `Props/Comments.lean` | induction on strings for the escape functions; simulation between writer states and lexer states for arbitrary call sequences |
| C30, C38, C39, C41, C42 | `Props/Reader.lean`, `Uuid.lean` | induction over events, no condition on the document; induction over the sequence of reads; "exactly when" of C38 for documents that make sense in `ReadNested.lean` |
| C35–C37, C40, C45, C58 | `Props/ReadDoc.lean` | both passes carry out the statements of the document (`Sensible.means`); induction over statements with `Live` as invariant |
| C32, C43 | `Props/ReadSame.lean` | two documents with the same meaning in the sense of `Means` |
| C69–C71 | `Props/ReadExact.lean` | exact value of every reference and collection as a fold over the statements (`Cim/Exact.lean`: effect of one statement on one end), then induction over the statements |
| C74 | `Props/ReadPairs.lean` | as C69–C71, for one-to-one references (all of them in one fold, since a statement also frees the former partner) |
| C73 | `Props/ReadParts.lean`, `ReadMany.lean` | both readings as folds over the same statements; the objects of the two results correspond by a renaming that the folds respect (`Props/Rename.lean`); induction over the files |
| C44, C45_raises, C72 | `Props/ReadNested.lean` | the second pass on arbitrary trees (`Voc.heard`, `Cim/Den.lean`), texts that cannot be converted (`Cim/Bad.lean`) |
| C31, C33, C34 | `Props/ReadSkip.lean` | simulation of two runs event by event, arbitrary documents |
| C46–C48 | `Props/Write.lean` | text of `cimwrite` = image of the element tree `docElem`, by simulation; C48 by structural induction over the program |
| C49–C54, C57, C60 | `Props/RoundTrip.lean` (via `RoundDoc`, `RoundFits`, `Round`) | the written document makes sense to the reader; its meaning is the model |
| C52 | `Props/Foreign.lean` | the written document (C46) read by C30 |
| C54 | `Props/Lines.lean`, `Props/Control.lean` | the text written for a string with carriage returns lexes like the text of the string with line feeds; a well-formed text has only XML characters, and whatever is written ends up in the text |
| C55, C56, C59 | `Props/Pretty.lean` | structural induction on trees |
| C61, C62 | `Props/Declared.lean` | complete table; every execution of `cimwrite` |
| C63, C64 | `Props/Alias.lean` | refinement as for C01–C09, instances with line segments and impedances |
| C65 | `Props/ReadLog.lean`, `Props/RoundLog.lean` | the reports of a document (`Spec/Log.lean`), induction over its elements (`Cim/Logs.lean`) |
| C66–C68 | `Props/PrettyDoc.lean` | `tostring` followed by `parse` is the identity up to attribute order (`Xml/SerialTree.lean`), events of a text = its tree (`Xml/Same.lean`), simulation of the two reads |
| C75–C77 | `Props/Schema.lean`, `SchemaMore.lean` | complete tables compared by kernel evaluation (`Gen/Models.lean`), lifted to every class; C76, C77 then follow in every state from C17 and the refinement of C01–C08 |
| C78 | `Props/Files.lean` | the text begins with the declaration (`Cim/WriteOut.lean`), which decides the decoding; replacing non-ASCII characters in all strings commutes with `cimwrite` (`Xml/Morph.lean`, `Cim/Morph.lean`), so a misdeclared file is the file of the garbled model |
| C79 | `Props/Files.lean` | the three passes over the stream |
| C80 | `Props/ReadVoid.lean` (items: `Cim/Idle.lean`) | C35–C37, C69–C71 say the same about the statements with and without the empty elements; an element of a to-one reference without partner leaves the state exactly as it is (`noRes_run`), and remains such while the statements before it are carried out (`items_bare`) |
| C81 | `Props/ReadClosed.lean` | from the description of the state after the call (`Reads`) |
| C82 | `Props/ReadCopy.lean` | both readings as folds over the same statements, which respect the correspondence of objects (`Props/Rename.lean`) |
| C83 | `Props/Content.lean` (spec `Spec/Content.lean`, insertions `Xml/Insert.lean`) | both passes factor through the events of the content (filter, then normalise attributes and text); comments and instructions leave the machines of the parser where they are |
| C84 | `Props/Plain.lean` | every character is written as itself only below 128; the text starts with a tag, not with a declaration |
| C85 | `Props/Depends.lean` | both calls step by step from the same writer: same outcome, same writer |
| C86 | `Props/Parts.lean` | every step fails, does nothing, or appends a text, independently of the writer; composed over the loops |
| C87 | `Props/Pieces.lean` | the parts are a split of the document of the whole (C73), what is known about one result (C49) is carried over to the other along the correspondence of objects |
| C88 | `Props/Pieces.lean` | C87 and the part of C53 that needs only what came back |
| C89 | `Props/Lost.lean`, `Props/Kept.lean` | the statements of the first file make sense with unknown targets; a link with an object the second file describes can only come from a statement of the second file (`Reads.links`), and cimwrite makes none about collections; conversely a link without rivals in the whole document has none for either file, so `Reads.linked` applies to each; the links of a model have none, and what a part states is about its objects |

Models (C46–C54) are heaps, not trees: sharing and cycles between objects are included.

## 3. Not modelled

* Time stamps and formatting of log messages: the log is a list of message kinds with their arguments.
* Opening and closing files. Bytes appear in C78 only (UTF-8 and character sets of one byte per character; UTF-16 and multi-byte sets count as
  malformed); elsewhere the reader gets the decoded text.
* Pickling, direct access to private fields (`obj._Terminals.append`), `setattr` with names starting with `_`, threads.
* `str` with lone surrogates. The limit of 4300 digits `int(text)` has since Python 3.11. Digits and spaces outside ASCII are those of
  Unicode 14 (Python 3.11).
* DOCTYPE: the model counts such documents as malformed, so theorems about well-formed documents say nothing
  about them.
* `Op.setList` is assigning a fresh list display; that assigning the list of another collection breaks things is C63. List arguments of
  constructors are list displays bound to a variable (`Op.list`).
* Recursion depth and memory. `fuel` bounds the depth of accessor calls; the theorems hold for every `fuel ≥ 4`, i.e. the
  depth needed does not depend on the model (mutual calls of `add*` and setters end after three steps).

## 4. Disagreements between code and intention

* Many-to-many `add*` appends without membership test; `add, add, remove` leaves the ends in disagreement (C02, C08); replacing
  a non-empty many-to-many collection raises (C09).
* `remove*` of a non-member takes the object out of its real collection (C05); assigning a collection may steal members (C06).
* A constructor call rejected for an unknown keyword has already linked its reference arguments (C11).
* Four CIM15 references have no opposite (C15); two classes share a name in CIM14.ENTSOE.Equipment (C16);
  `ACLineSegmentPhase.phase`: `_defaults` and `__init__` differ (C17); value classes cannot be made by the reader (C19); inherited references
  declared again (C20); `EnergyConsumerPhase.phase` is not declared and never written (C61).
* `SimpleXMLWriter.start`: keyword attributes are collected and then ignored (C28).
* `SimpleXMLWriter.comment`: `&`, `<`, `>` are replaced by entities, which a parser does not expand in comments (C24).
* `xmlpp` renames the prefix `cim` to `ns1` or the like; `cimread` looks for the prefix, so without `packageMap` and `nsURI` it
  reads nothing from a pretty-printed file (C66). Carriage returns and non-ASCII names do not survive `xmlpp` (C67), nor, in older versions of Python, tabs and carriage returns in attribute values.
  A property element with child elements gets white space as its text (C66).
* `us-ascii` under Python 2: escaped text with a non-ASCII character is escaped twice (C29).
* `declaration()` does not close an open start tag; calling it inside the document is outside C24.
* A property element whose name ends in `UUID` overwrites the identifier (C30: `C30_uuid`).
* A nested element of unknown class: its properties are applied to the enclosing object (C34).
* `ValueError` also for unusable numbers (C38); `TypeError`, `IndexError`, `ValueError`, `AttributeError` for well-formed documents (C45).
* An empty element of a string attribute is read as the string `"None"` (C35_empty).
* An empty element of a to-one reference replaces the partner by a new object that is not in the result: `type(partner)(None)` (C80; in every state of the reader: `Props/Replaced.lean`).
* Many-to-many links stated at both ends are doubled (C43).
* References to objects of a file read later are lost without a message but in the log (C73, C89).
* An object of start_dict that the file describes again is replaced in the dict, while other objects keep referring to the former one (C81).
* Properties of a nested description are applied to the outer object, and what follows it is lost (C72).
* `ProtectionEquipment.ProtectedSwitches`: reading raises `AttributeError` (C58).
* Many-to-many links are not written (C50); CIM14 models are written as CIM15 (C52); control characters make the
  text unreadable, carriage returns become line feeds (C54); compound values make `cimwrite` raise (C62).
* Assigning the list of another collection makes both collections share it (C63).
* `PerLength*Impedance.LineSegments = [line]` writes the field `_SequenceImpedance`/`_PhaseImpedance` of the line instead of
  `_PerLengthImpedance`: the impedance lists the line, the line shows no impedance (C64).
* CIM15 has five classes, two attributes and six references its information model does not have; integers of unlimited size are
  text (C75). Objects of eight classes show another association than the information model says under an inherited
  name (C77): `breaker.addProtectionEquipments(p)` does not show in `p.ConductingEquipments`;
  `p.addConductingEquipments(breaker)` shows at both ends, but puts `p` into a collection of another association.
* `cimwrite(d, path, encoding)` opens the file in the encoding of the locale and declares `encoding` (C78). `cimread` of a file object
  does not set it back before the first pass (C79): `cimwrite(d, f); cimread(f)` raises.

## 5. Trusted base

* Lean's kernel (4.33.0). No axioms of our own; per theorem as listed below, at most `propext`, `Classical.choice`, `Quot.sound`.
* The reading of the Python text documented at each definition (file and lines).
* `tools/gen.py` for the tables: it refuses what it does not recognise, but that its output corresponds to
  the Python text is not proved.
* `tools/ecore.py` likewise for the information models.
* The models of Python and of the XML parser of section 1.
  A test of these models, not a proof: `tools/conform.py` drives the step functions of the parser and of both passes of
  `cimread` over the six CIM files of `PyCIM/Test/Data`. The loop around them is the script's own, not `cimread` of the model: it keeps the heap in
  hash tables and copies only the objects it expects a step to touch. The CDPSM parts are read with the package maps of their profiles. Compared with
  counts taken from the text of the files by regular expressions, outside comments:

  | File (`EDF_AIGUE_v9…`) | objects read = elements with `rdf:ID` or `rdf:about` | messages = dangling references | links = 2 × other references |
  |---|---|---|---|
  | `_EQUIP` | 397 | 0 | 16 |
  | `_ASSET` | 1 124 | 4 | 1 684 |
  | `_CONN` | 2 978 | 0 | 9 452 |
  | `_GEO` | 2 582 | 1 | 5 162 |
  | `_COMBINED` | 5 894 | 0 | 17 222 |
  | (none) | 5 660 | 0 | 14 788 |

  No link was one-sided. The script also looks for statements that violate `Fits` and found none; its test is a hand-written
  approximation of `Fits` (it accepts alias references unseen), so this does not establish the hypothesis for these files.
  PyCIM itself was not run; the comparison is with the files, not with the output of the Python code.
  `int(text)` and `float(text)` of the model were compared with those of CPython 3.11 on 7189 strings (every decimal digit of
  Unicode, `inf`/`nan` in various spellings, random strings of digits, signs, underscores, points and exponents): no difference.

## 6. Seeded bugs

`seeded/LOG.jsonl` has one line per wrong program tried. Three methods were used, named in the field `method`:

* *build of all theorems*: the edited model is built and the theorems that no longer prove are listed in `failed`. This shows
  that a proof depends on the definition, which is weaker than that its statement has become false.
* *concrete instances of the theorems*: `tools/refute.lean.txt`, `refute2`, `refute3` hold instances of the conclusions of the
  theorems, on graphs and documents that meet their hypotheses, and evaluate them in the edited model. An instance that
  evaluates to false shows that the statement of the theorem is false for the wrong program; those theorems are in `refuted`.
  On the unedited model all instances hold. In entries with this method only, `failed` repeats `refuted`.
* *table edited*: `tools/tables.lean.txt` edits single entries of the generated tables (a parameter, a default, a type, the
  maintenance code of a reference, an export, a method resolution order, ...) and has the kernel evaluate the statements about
  tables (C15–C21, C46, C61, C75–C77) on the result. One entry of the log per kind of edit. Done for all classes of
  CIM14.CPSM.StateVariables and CIM14.CPSM.Balanced; the larger packages need more memory than there is.

Entries without `failed` say why in `note`: the edit does not compile, makes no observable difference, or touches a
part no property speaks about. Entries `auto…` were produced by swapping operators and constants mechanically, the others written
by hand. `tightened` names the theorems that were strengthened because the first version still proved; the entry with the next
`attempt` shows the result.

## 7. Axioms

<!-- axioms -->

Axioms per theorem (`tools/axioms.py`, names in `Verif.Props`):

* Classical.choice, Quot.sound, propext: C01_any, C01_assign, C01_clear, C02_breaks, C02_partial, C03_clear, C03_exclusive, C04_members, C04_members_remove, C05_fails, C05_many, C05_partial, C06_effect, C06_fails, C06_iff, C06_partial, C07_remove, C07_symmetric, C08_fails, C08_partial, C09_partial, C10_ctor, C10_oneway, C10_plain, C11_effect, C11_partial, C12_add, C12_addM, C12_plain, C12_set, C12_set_one, C13_fresh, C13_separate, C14_repeat, C14_same, C14_same_one, C15_partial, C16_partial, C16_resolves, C17_fails, C17_partial, C19_fails, C19_partial, C22_attr, C22_text, C24_comment_iff, C24_comments, C24_decl, C24_tokens, C25_accepts, C26_close, C29_attr, C29_attr_reads, C29_calls, C29_partial, C29_raises, C29_reads, C30_partial, C30_uuid, C31, C32, C33_ignored, C33_reported, C34_attribute, C34_class, C34_counted, C34_reported, C35_bool, C35_default, C35_empty, C35_float, C35_int, C35_str, C36, C37_keeps, C37_resolves, C38_partial, C39_detects, C40_applies, C40_object, C41_malformed, C43_partial, C44, C45_partial, C45_raises, C46_document, C47_properties, C49_round_trip, C50_fails, C50_lost, C51_part, C52_fails, C52_namesakes, C52_partial, C53_again, C53_stable, C54_control, C54_control_enum, C54_control_id, C54_control_ref, C54_fails, C54_line_ends, C54_lines, C54_partial, C57_int, C58_partial, C59_xmlpp, C60_float, C63_partial, C64_assign, C64_ctor_too_many, C64_list_never, C65_log, C65_round, C65_silent, C66_fails, C66_partial, C67_partial, C68_partial, C69_first, C69_kept, C69_taken, C69_value, C70_distinct, C70_list, C71_list, C71_order, C72_reads, C73, C73_many, C74_kept, C74_last, C74_one, C74_value, C75_fails, C75_partial, C76_fails, C76_partial, C77_fails, C77_forwarding, C77_partial, C77_redeclared, C78_default, C78_fails, C78_garbled, C78_locale, C78_locale_fails, C78_lost, C78_misdeclared, C78_partial, C78_same, C80_collections, C80_partial, C80_replaces, C81_new, C81_partial, C81_stale, C82, C82_again, C82_kept, C83, C83_comment, C83_instruction, C84_file, C86_parts, C87_pieces, C88_merge, C89_attrs, C89_exactly, C89_links, C89_model, C89_refs, C89_values
* Quot.sound, propext: C02_fails, C04_add, C04_remove, C05_witness, C06_witness, C09_fails, C15_fails, C16_fails, C18_metadata, C20_fails, C20_partial, C21_inheritance, C23_attr, C23_text, C24_nested, C25_unbalanced, C27_element, C27_writes, C28_fails, C28_partial, C38_raises, C39_version, C42_independent, C42_sequence, C55_preserves, C56_idempotent, C59_layout, C61_partial, C62_raises, C63_shared, C64_exclusive, C64_get, C67_raises, C72_inner, C72_rest, C75_only_fails, C75_only_partial, C77_opposite, C84, C85_depends
* propext: C08_witness, C09_witness, C11_fails, C22_limits, C24_comment_fails, C28_ignored, C29_attr_fails, C29_fails, C30_fails, C34_fails, C38_fails, C39_undeclared, C43_fails, C45_fails, C48_unchanged, C58_fails, C61_fails, C62_fails, C63_fails, C64_list_fails, C64_set, C66_blank_fails, C66_fails_doc, C67_cr_fails, C67_name_fails, C67_value_fails, C68_fails, C72_fails, C73_forward, C79_end, C79_fails, C79_partial, C79_twice, C79_unseekable, C80_fails, C81_fails, C83_front_fails
