#!/usr/bin/env python3
"""Writes /verif/properties.jsonl (kept as a script so that the JSON stays well formed)."""
import json, os
P = []
def p(id, title, statement, quantifier, why, anchors):
    P.append(dict(id=id, title=title, statement=statement, quantifier=quantifier,
                  why_tests_cant=why, anchors=anchors))
R='PyCIM/RDFXMLReader.py'; W='PyCIM/RDFXMLWriter.py'; X='PyCIM/SimpleXMLWriter.py'; PP='PyCIM/PrettyPrintXML.py'
T='CIM15/IEC61970/Core/Terminal.py'; CN='CIM15/IEC61970/Core/ConnectivityNode.py'
H='any number of objects of any classes and any earlier history; tests build two or three objects and one or two assignments'
# ---- association API ---------------------------------------------------------------------
p('C01','Assigning a single-valued reference updates both ends',
 'After `x.R = y` on a to-one reference whose other end is a collection, `x.R` is y, x occurs exactly once in y\'s collection, x occurs in no other object\'s collection for that association, and the call does not raise; after `x.R = None`, x is in no collection.',
 'every consistent object graph, every x, y and every one-to-many reference name of their classes',
 H,[T+':setConnectivityNode',T+':setConductingEquipment','CIM15/IEC61970/LoadModel/ConformLoad.py:setLoadGroup'])
p('C02','Bi-directional references never disagree',
 'After any sequence of object constructions (with or without reference arguments), to-one assignments, add* and remove* calls with values of a class that declares the opposite end, for every association a is reachable from b through one end exactly when b is reachable from a through the other end.',
 'every finite history of well-typed public operations starting from no objects',
 'histories are unbounded and the invariant couples every pair of objects',[T,CN,'README.rst:"Transparent bi-directional reference handling"'])
p('C03','One-to-one references are exclusive',
 'After `x.R = y` on a one-to-one reference: x.R is y, y\'s opposite reference is x, the previous partner of x and the previous partner of y (if different) have None, and no third object refers to x or y through this association.',
 'every consistent object graph and every x, y, including x and y already linked to each other or to others',
 H,[T+':setBushingInfo','CIM15/IEC61970/Generation/Production/ThermalGeneratingUnit.py:setStartupModel'])
p('C04','add*/remove* on a collection are the reverse assignment',
 'For a to-many end whose other end is to-one, `y.addC(x1,..,xn)` has exactly the effect of assigning `xi.R = y` one after another, `y.removeC(x1,..,xn)` that of `xi.R = None`; the members afterwards are the old members that were not named followed by the named ones in call order (last occurrence wins).',
 'every object graph, every y and every argument list',H,[CN+':addTerminals',CN+':removeTerminals'])
p('C05','Removing an object from a collection it is not in changes nothing',
 '`y.removeC(x)` when x is not a member of y\'s collection leaves every reference of every object as it was.',
 'every consistent object graph, y, x','needs every third owner of x to be considered',[CN+':removeTerminals'])
p('C06','Replacing a collection keeps both ends in agreement',
 'After `y.C = [x1,..,xn]` (other end to-one) the collection is that list, each xi refers to y, every former member not in the list refers to nothing, and no object is a member of a collection whose owner it does not refer to.',
 'every consistent object graph, y and every list of objects, including objects owned by others',H,[CN+':setTerminals','PyCIM/Test/CIM15Test.py:test_base_voltage_set_xfmr_ends'])
p('C07','Many-to-many membership is symmetric',
 'After any sequence of constructions and add*/remove* calls on many-to-many associations, a is in b\'s collection exactly when b is in a\'s; remove* of a current member never raises.',
 'every history of add/remove calls (each object added at most when not yet linked)','histories are unbounded',['CIM15/IEC61970/Wires/TransformerEnd.py:addToMeshImpedance','CIM15/IEC61970/Wires/TransformerEnd.py:removeToMeshImpedance'])
p('C08','A many-to-many collection holds each partner once',
 'After any history of add*/remove* calls no many-to-many collection contains the same object twice, so that one remove* undoes any number of add*.',
 'every history of add/remove calls','histories are unbounded',['CIM15/IEC61970/Wires/TransformerEnd.py:addToMeshImpedance'])
p('C09','Replacing a many-to-many collection works',
 '`y.C = [..]` on a many-to-many association succeeds, un-links every former partner and links every new one.',
 'every consistent object graph, y, and list','the failing case depends on earlier history (a non-empty collection)',['CIM15/IEC61970/Wires/TransformerEnd.py:setToMeshImpedance'])
p('C10','Reference arguments of a constructor act like assignments',
 '`C(R1=v1,..)` yields an object with every attribute at its default except those given, linked exactly as if the object had been created bare and then assigned R1, R2, .. in declaration order; existing links of other associations are unchanged.',
 'every class, every consistent graph, every set of to-one reference arguments',H,[T+':__init__'])
p('C11','A rejected construction has no effect',
 'If a constructor call raises (for example because of an unknown keyword) no existing object is changed.',
 'every class and keyword set','needs every combination of keywords and crash points',[T+':__init__','CIM15/Element.py:__init__','CIM15/IEC61970/Wires/ACLineSegment.py:__init__'])
p('C12','Assignments touch only the two ends involved',
 'Assigning, adding or removing a reference changes only: the assigned reference itself, and the opposite ends of its old and new value. All other references, collections and every plain attribute of every object keep their value and order.',
 'every object graph, operation and every object/attribute not involved',H,[T,CN])
p('C13','Objects never share default collections',
 'Two different objects, or two different to-many references of one object, that were created by constructor calls without list arguments never share one list: adding to one leaves the other unchanged, and every object starts with empty collections and None references.',
 'every class and any number of constructions','tests look at a couple of instances',['CIM15/IEC61970/Core/IdentifiedObject.py:__init__'])
p('C14','Repeating an assignment is harmless',
 '`x.R = y` performed twice (or more) leaves every reference the same as once, including the order of all collections; performed when already true it only moves x to the end of y\'s collection.',
 'every consistent graph, x, y, repetition count',H,[T+':setConnectivityNode'])
# ---- class tables -----------------------------------------------------------------------
p('C15','Every association end has a matching opposite end',
 'In each CIM package (CIM14, CIM15 and every profile) for every reference with an opposite some class of the same package declares the opposite reference, pointing back by name and with the opposite multiplicity (to-one/to-many, one-to-one, many-to-many).',
 'all 2 600+ reference declarations of all 1 676 classes','tests touch a handful of classes; the property is about every declaration',['CIM14','CIM15'])
p('C16','packageMap resolves every class',
 'For each package and profile, every key of packageMap names a module that exports a class of exactly that name, and every class of the package occurs in the map.',
 'all entries of the 16 packageMaps','finite but large table',['CIM15/__init__.py:packageMap','CIM14/__init__.py:packageMap'])
p('C17','Declared defaults are the constructor defaults',
 'For every class and attribute in _attrs the value recorded in _defaults is the value a freshly constructed object has.',
 'all classes and attributes','finite but large table',['CIM15/IEC61970/WiresPhaseModel/ACLineSegmentPhase.py'])
p('C18','Class metadata is well formed',
 'For every class: _defaults and _attr_types have exactly the keys _attrs, _enums only names attributes, _many_refs only names references, each default has the declared type, no name is listed twice, no name is both attribute and reference, and the names are legal as the last segment of an XML tag.',
 'all classes','finite but large table',['CIM15','CIM14'])
p('C19','The reader can instantiate every mapped class',
 'For every class in a packageMap, an element of that class with an rdf:ID is turned into an object without raising.',
 'all entries of the packageMaps','finite but large table',[R+':cimread','CIM15/IEC61968/Common/Status.py'])
p('C20','No inherited name is redefined',
 'Along every inheritance chain each attribute or reference name is declared by exactly one class.',
 'all classes of all packages','finite but large table',['CIM15/IEC61970/Graphics/DiagramObjectStyle.py','CIM15/IEC61970/Wires/ProtectedSwitch.py'])
p('C21','Inheritance stays inside a package and ends in Element',
 'Every class chain is acyclic, consists of classes of its own package, and ends in that package\'s Element (or is a stand-alone value class).',
 'all classes','finite but large table',['CIM15/Element.py'])
# ---- XML writer -----------------------------------------------------------------------------
p('C22','Escaping is undone by an XML parser',
 'Text or attribute values passed through the writer\'s escaping and read back by an XML 1.0 parser are the original string.',
 'every string of XML characters (text without CR; attribute values also without TAB/LF)','infinitely many strings, including all interactions of &, <, >, quotes and entity-like substrings',[X+':escape_cdata',X+':escape_attrib'])
p('C23','Data cannot inject markup',
 'The escaped form of any string contains no "<" and no ">", every "&" in it starts one of the five predefined entities, and (for attributes) it contains no quote character.',
 'every string','infinitely many strings',[X+':escape_cdata',X+':escape_attrib'])
p('C24','Every accepted sequence of writer calls produces the document it describes',
 'For any sequence of start/data/element/comment/end/close calls that raises nothing, the text written is lexed by an XML parser into exactly the described start tags, attributes, character data, comments and end tags, in order, properly nested once all elements are closed.',
 'every sequence of calls with legal names and characters','sequences are unbounded',[X+':XMLWriter'])
p('C25','Unbalanced ends are rejected without output',
 '`end()` with no open element and `end(tag)` with a tag other than the innermost open one raise AssertionError, write nothing and leave the writer usable.',
 'every writer state reachable by any calls','every history',[X+':XMLWriter.end'])
p('C26','close(id) closes exactly the elements opened since',
 '`close(start(..))` after any balanced or unbalanced calls that leave that element open closes it and all elements opened after it, innermost first, and none opened before it.',
 'every reachable writer state and nesting depth','every history',[X+':XMLWriter.close'])
p('C27','element() equals start, data, end',
 '`element(tag, text, attrib)` writes exactly what `start(tag, attrib)`, `data(text)` (when text is non-empty), `end()` write, and leaves the nesting unchanged.',
 'every writer state, tag, text, attributes','every history',[X+':XMLWriter.element'])
p('C28','Keyword attributes are written',
 'Attributes given to start()/element() as keyword arguments appear in the start tag, as the API comment documents.',
 'every tag and keyword set','every argument combination',[X+':XMLWriter.start'])
p('C29','Non-ASCII text survives us-ascii output (Python 2)',
 'With encoding "us-ascii", text or an attribute value containing non-ASCII characters is written with numeric references that an XML parser reads back as the original string.',
 'every string, as text and as attribute value','infinitely many strings',[X+':encode_entity',X+':escape_cdata',X+':escape_attrib'])
# ---- reader ---------------------------------------------------------------------------------
p('C30','cimread returns exactly the objects of the file',
 'The returned dict has exactly the keys of start_dict plus the identifiers of all elements whose class is in the package map; the object under each key has the class named by the (last) element with that identifier, and its UUID is that identifier.',
 'every well-formed document, package map and start_dict','documents are unbounded',[R+':cimread'])
p('C31','rdf:ID="x" and rdf:about="#x" are equivalent',
 'Replacing rdf:ID="x" by rdf:about="#x" on any elements leaves the result of cimread unchanged.',
 'every document and every choice of elements','unbounded documents',[R+':cimread'])
p('C32','Element order does not matter',
 'For documents with one element per identifier whose statements fit the classes, any permutation of the top-level elements yields the same objects, attribute values, to-one references and collection members, except links that compete for the same to-one reference; in particular references may point forward.',
 'every such document and permutation','n! permutations of unbounded documents',[R+':cimread'])
p('C33','Dangling references are skipped and reported',
 'A reference to an identifier that is not in the result is reported in the log and has no other effect: the remaining attributes, references and objects are read as if that element were absent.',
 'every document and position','unbounded documents',[R+':cimread'])
p('C34','Unknown classes and attributes are skipped and reported',
 'An element whose class is not in the package map creates no object; an attribute the object does not have is counted in the log; neither affects any other object or attribute.',
 'every document and position','unbounded documents',[R+':cimread'])
p('C35','Literals are converted to the attribute\'s type',
 'An attribute element sets a bool attribute to True exactly when its text is "true" in any letter case, an int attribute to the integer its text denotes, a float attribute to float(text), a str attribute to the text; an empty element leaves bool/int/float attributes unchanged.',
 'every attribute and text','infinitely many texts',[R+':cimread'])
p('C36','Enumeration values are the last URI segment',
 'A resource that does not start with "#" sets the attribute to the part after the last ".".',
 'every attribute and URI containing a "."','infinitely many URIs',[R+':cimread'])
p('C37','start_dict is extended, not rebuilt',
 'With start_dict given, cimread returns that same dict; entries whose identifier is not in the file keep their object; references from the file to them are resolved to those objects.',
 'every document and start_dict','unbounded',[R+':cimread'])
p('C38','packageMap and nsURI must be given together',
 'cimread raises ValueError exactly when one of packageMap/nsURI is given (truthy) and the other not, before changing start_dict or any object.',
 'every argument combination and document','every document',[R+':cimread'])
p('C39','CIM version detection',
 'Without explicit arguments the package map is CIM14\'s exactly when the "cim" prefix is bound to the CIM14 namespace (with or without trailing "#"), otherwise CIM15\'s; elements are recognised exactly in the namespace bound to "cim" with one "#".',
 'every namespace table','infinitely many URIs',[R+':get_cim_ns',R+':xmlns',R+':get_rdf_ns'])
p('C40','Repeated identifiers',
 'If several elements carry the same identifier the result has one object for it, of the class of the last such element with known class, and attributes from all of them are applied to that object.',
 'every document','unbounded',[R+':cimread'])
p('C41','Malformed XML never half-populates objects',
 'If the document turns out not to be well formed at any point, cimread raises and no attribute or reference of any object that existed before the call has been changed; new objects have only default values.',
 'every document prefix (every failure point), every start_dict','every crash point',[R+':cimread'])
p('C42','Successive reads are independent',
 'Reading files one after another without start_dict yields disjoint sets of objects; a later read changes no object returned by an earlier one.',
 'every sequence of documents','unbounded sequences',[R+':cimread','PyCIM/Test/RDFXMLReaderTest.py:test_cim_reads_are_independent'])
p('C43','Stating both ends of an association is harmless',
 'A file that states the same link from both ends (a.R -> b and b.C -> a), in any order, yields the same links as stating it from one end, with no duplicates.',
 'every document','every interleaving of both statements',[R+':cimread'])
p('C44','The result of cimread is bi-directionally consistent',
 'After cimread of any document whose references connect objects of matching classes, every association of every object agrees with its opposite.',
 'every such document, any start_dict that is consistent','unbounded documents',[R+':cimread'])
p('C45','cimread never fails on well-formed XML',
 'For well-formed XML input cimread raises no exception whatever the content; unusable content is reported in the log instead.',
 'every well-formed document','unbounded documents',[R+':cimread'])
# ---- writer ---------------------------------------------------------------------------------
p('C46','cimwrite writes each object once, as well-formed XML',
 'The output is a well-formed document with root rdf:RDF and exactly one child per dict entry, in dict order, with the object\'s class as tag and its UUID as rdf:ID.',
 'every model whose objects are CIM objects with XML-character strings','unbounded models and strings',[W+':cimwrite'])
p('C47','Only non-default attributes are written',
 'A plain attribute appears in the output exactly when its value differs from the class default, enumerations always, to-one references exactly when not None, collections never; each as one element named after the declaring class.',
 'every object and attribute','unbounded',[W+':cimwrite'])
p('C48','cimwrite does not change the model',
 'Serialising leaves every object unchanged.',
 'every model, also when it raises','every model',[W+':cimwrite'])
p('C49','Write then read gives back the model',
 'cimread(cimwrite(d)) has the same keys in the same order, objects of the same classes, equal values of all declared attributes and enumerations, and to-one references to the object with the same identifier; collections opposite to a to-one reference have the same members.',
 'every consistent model of CIM15 objects with correctly typed attribute values and XML-safe strings','unbounded models',[W+':cimwrite',R+':cimread'])
p('C50','Many-to-many links survive write/read',
 'Links of many-to-many associations are the same after cimread(cimwrite(d)).',
 'every consistent model','unbounded models',[W+':cimwrite'])
p('C51','References leaving the written set',
 'A to-one reference to an object that is not in d is dropped by the round trip and nothing else changes.',
 'every model and subset d','unbounded models',[W+':cimwrite',R+':cimread'])
p('C52','CIM14 models survive write/read',
 'Objects of the CIM14 classes written with cimwrite are read back as CIM14 objects.',
 'every CIM14 model','unbounded models',[W+':cimwrite'])
p('C53','Serialisation is stable',
 'Writing the model obtained by reading a written model produces the same text again; references that leave the model are dropped by the first round trip and from then on the text stays the same.',
 'every model as in C49','unbounded models',[W+':cimwrite',R+':cimread'])
p('C54','All string attributes survive write/read',
 'Any Python string assigned to a string attribute is returned unchanged after cimread(cimwrite(d)).',
 'every string','infinitely many strings (control characters, CR, empty)',[W+':cimwrite',R+':cimread'])
# ---- pretty printer ---------------------------------------------------------------------------
p('C55','Pretty-printing only changes white space',
 'xmlpp leaves tags, attributes, child order, the text of elements without children and every non-blank text unchanged; only blank text between tags is replaced.',
 'every element tree','unbounded trees',[PP+':indent'])
p('C56','Pretty-printing is idempotent',
 'Indenting an already indented tree changes nothing.',
 'every element tree','unbounded trees',[PP+':indent'])
p('C57','Integers survive write/read',
 'str() of any int attribute value is read back as that int.',
 'every integer','infinitely many integers',[W+':cimwrite',R+':cimread'])
p('C58','A to-many reference given in a file adds to the collection',
 'For each collection reference in the file whose target exists, the target is a member of the collection afterwards and its opposite end refers back, whatever else the file contains about other associations.',
 'every document','unbounded',[R+':cimread','CIM14/IEC61970/Protection/ProtectionEquipment.py:add_ProtectedSwitches'])
p('C59','Pretty-printing lays elements out by depth',
 'In a tree whose text next to child elements is white space, after indenting every child element starts on its own line, indented by two blanks per nesting level, and the end tag of an element with children is on its own line at the level of its start tag.',
 'every such element tree','unbounded trees',[PP+':indent'])
p('C60','Floats survive write/read',
 'A float attribute value is read back as the same number; a value equal to the default of the attribute comes back as that default (so the sign of zero may be lost), and NaN comes back as NaN.',
 'every IEEE double','2^64 values; shortest repr and correctly rounded conversion',[W+':cimwrite',R+':cimread'])
p('C61','Everything a constructor accepts is written',
 'Every keyword accepted by the constructor of a class is a declared attribute or reference of it, so that no state of an object is invisible to cimwrite.',
 'every class of every package','hundreds of classes, each would need its own test',[W+':cimwrite','CIM15/IEC61970/WiresPhaseModel/EnergyConsumerPhase.py:EnergyConsumerPhase'])
p('C62','Compound values are written',
 'cimwrite accepts models in which a to-one reference holds a compound value such as Status.',
 'every such model','unbounded models',[W+':cimwrite','CIM15/IEC61968/Common/Status.py:Status'])
p('C63','Collections of different objects are independent',
 'After y.C = y1.C, or y.C = any list, a later change of one collection is not visible in the other: adding a member to y through x.R = y changes only the collection of y and the one x leaves.',
 'every object graph, every list','unbounded',[ 'CIM15/IEC61970/Wires/RatioTapChangerTabular.py:setRatioTapChangerTabularPoint'])
p('C64','Alternative names of a reference agree',
 'ACLineSegment.SequenceImpedance and .PhaseImpedance show the value of PerLengthImpedance if it has the respective class and None otherwise, so at most one of them shows an object; assigning to either is assigning to PerLengthImpedance; a constructor call with more than one of them raises ValueError and links nothing; setting PerLength*Impedance.LineSegments has the same effect as assigning the impedance of each line.',
 'every object graph','unbounded graphs and histories',['CIM15/IEC61970/Wires/ACLineSegment.py:getSequenceImpedance','CIM15/IEC61970/Wires/PerLengthSequenceImpedance.py:setLineSegments'])
p('C65','The log reports exactly what was not read',
 'The log of cimread has one entry for each element of unknown class, each element and each reference naming an object that is not in the result, one counted entry for each pair of class and attribute the objects do not have, entries for namespaces that are not declared or not known, and no others. It is empty exactly when nothing was left out; reading back a model written by cimwrite logs nothing unless a to-one reference leads out of the model.',
 'every document whose statements fit the classes of their subjects','unbounded documents',[R+':cimread',R+':get_rdf_ns',R+':get_cim_ns'])
Q='PyCIM/PrettyPrintXML.py'
p('C66','Reading a pretty-printed file is reading the file',
 'cimread(xmlpp(f)) gives the same objects, dictionary, log and errors as cimread(f), for every choice of arguments.',
 'every document','unbounded documents',[Q+':xmlpp',R+':cimread',R+':get_cim_ns'])
p('C67','xmlpp returns an equivalent document',
 'xmlpp raises exactly when its source is not well-formed. Otherwise its result is a well-formed document with the same elements, qualified names, attributes and text, apart from white space next to tags.',
 'every text','unbounded documents',[Q+':xmlpp',Q+':indent'])
p('C68','xmlpp is idempotent',
 'xmlpp(xmlpp(f)) is the same text as xmlpp(f).',
 'every document','unbounded documents',[Q+':xmlpp',Q+':indent'])
p('C69','Competing statements about one reference: the first counts',
 'If several elements of a document name a target for the same to-one reference (whose opposite is a collection), the first of them with an existing target counts. A reference the object has before the call is kept. A later statement that adds the object to the collection of another object replaces it.',
 'every document and every graph it is read into','unbounded documents; order of statements',[R+':cimread'])
p('C70','Many-to-many collections list exactly what was stated',
 'After cimread a many-to-many collection has its old entries followed by one for every statement about it, in document order, and one for every statement from the other end whose subject is not yet listed. It has no duplicates if no link is stated twice.',
 'every document','unbounded documents',[R+':cimread','CIM15/IEC61968/PaymentMetering/ConsumptionTariffInterval.py:addTouTariffIntervals'])
p('C71','Collections are in document order',
 'After cimread the collection opposite a to-one reference is determined by the statements in document order; if every member states its reference once and the collection itself is not stated, its new members are the objects naming it, in the order of the document.',
 'every document','unbounded documents',[R+':cimread','CIM15/IEC61970/Core/Terminal.py:setConductingEquipment'])
p('C72','A description inside another one describes its own object',
 'If the element describing an object contains an element describing another one, the properties inside the inner element belong to the inner object and all others to the outer one.',
 'every document','unbounded nesting; the two passes treat nested elements differently',[R+':cimread'])
p('C73','A model can be read file by file',
 'If a model is split over several files, none of which refers to what only a later one describes, and no object is described in two of them, then reading them in turn, each with the result so far as start_dict, gives the same identifiers, classes, attribute values, references and collections (in the same order) as reading the whole model from one file.',
 'every document, every split of it into any number of files, every start_dict and object graph','unbounded documents and splits; the objects of earlier files are shared by the later reads',[R+':cimread'])
p('C74','One-to-one references after cimread',
 'A statement about a one-to-one reference counts, from both ends, if the reference has no partner when it is read and no later statement of another object names one of the two objects. The object named leaves the partner it had, so no two objects have the same partner. A partner of before the call is kept if no other object names one of the two.',
 'every document and every graph it is read into','unbounded documents; order of statements',[R+':cimread','CIM15/IEC61970/StateVariables/SvPowerFlow.py:setTerminal'])
p('C75','The classes implement the information model',
 'Every class of an information model in Model/*.ecore is a class of the corresponding package, with the same base class and exactly the attributes (with the Python type for their data type, or the enumeration) and references (with the same multiplicities and opposite ends) the model gives it; every class of a package is in its information model.',
 'every class, attribute and reference of all sixteen packages and their information models','two tables of 1 700 classes each',['Model/CIM15/CIM15.ecore','CIM15/IEC61970/Core/Terminal.py','CIM14/__init__.py'])
p('C76','New objects have the initial values of the information model',
 'The attributes of an object made without arguments, inherited ones included, are the first literal of their enumeration, or the zero of their data type.',
 'every class, every attribute of its ancestors, every object graph in which the object is made','all classes and states',['Model/CIM15/CIM15.ecore','CIM15/IEC61970/Core/Terminal.py'])
p('C77','Every association of the information model can be made from either end',
 'For every association of the information model and any two objects of the classes it relates, or of classes derived from them: assigning (to-one) or adding (to-many) the one to the other succeeds, and afterwards each end shows the other object under the name the model gives.',
 'every association, every pair of objects, every object graph','all associations, classes and states',['Model/CIM15/CIM15.ecore','CIM15/IEC61970/Core/Terminal.py:setConductingEquipment'])
p('C78','Models survive being written to a file and read back',
 'After cimwrite(d, path, encoding), cimread(path) gives back the model: every string of the objects, whatever its characters, is read as it was written.',
 'every model, encoding name and locale','unbounded strings and models; depends on the locale of the machine',['PyCIM/SimpleXMLWriter.py:__init__','PyCIM/SimpleXMLWriter.py:declaration',W+':cimwrite',R+':cimread'])
p('C79','An open file can be read like a path',
 'cimread(f) of an open file object gives what cimread of its content gives: also directly after writing to it, when it has been read before, and when it is a pipe.',
 'every content, position and kind of file object','unbounded contents; three passes over one stream',[R+':cimread',R+':xmlns'])
p('C80','Elements that name no object leave references as they are',
 'An element of a reference or collection that has neither rdf:resource nor text leaves every reference and collection as it is: the result is that of the document without the element.',
 'every document, object graph and reference','unbounded documents and graphs',[R+':cimread'])
p('C81','The objects of the result refer to objects of the result only',
 'After cimread every object found at a reference or in a collection of an object of the result is itself in the result, if that was true of start_dict; in particular when a file describes objects of start_dict again.',
 'every document, start_dict and object graph','unbounded documents and graphs; concerns objects that can no longer be reached through the result',[R+':cimread'])
p('C82','Reading a file is reproducible',
 'A file that refers only to what it describes gives the same objects, attribute values, references and collections (in the same order) whenever it is read: whatever objects exist, whatever has been read before and whatever start_dict is given, also its own former result. It changes no object that existed before.',
 'every document, start_dict and object graph','two executions in arbitrary states',[R+':cimread'])
p('C83','What is read depends on what a file says, not on how it is written',
 'Two files with the same elements of the CIM namespace – same names, nesting, identifiers, resources where there is no identifier, and text where there is neither – are read alike by cimread: same objects, dict, log and exceptions. Comments, processing instructions, CDATA sections, references, quotes, order of attributes, further attributes, white space between elements, prefixes of elements and elements of other namespaces make no difference.',
 'every pair of documents, packageMap, nsURI, start_dict and object graph','two executions on unbounded documents',[R+':cimread',R+':xmlns'])
p('C84','Pretty-printed documents are plain ASCII',
 'The text returned by xmlpp consists of ASCII characters only, whatever characters the document contains; so it means the same in every encoding that extends ASCII.',
 'every document','unbounded documents, all characters',['PyCIM/PrettyPrintXML.py:xmlpp'])
p('C85','The text written depends on the written objects only',
 'What cimwrite writes, and whether and how it fails, is determined by the classes, identifiers, attribute values and to-one references (as identifiers) of the objects of the dict, in order. The keys of the dict, the collections, the identity of the objects and everything else in memory make no difference.',
 'every pair of dicts and object graphs that agree in this','two executions on unbounded graphs',[W+':cimwrite'])
p('C86','Every object is written on its own',
 'The text of a non-empty dict is a fixed head, one text per entry in order, and the end tag, where the text of an entry depends on the object and the graph, not on the other entries, its key or its place. Writing succeeds exactly when it does for each entry alone.',
 'every dict, object graph and encoding','unbounded dicts; executions related to each other',[W+':cimwrite'])
p('C87','A model can be stored in several files',
 'If the objects of a model are divided into parts, none of which refers to objects of a later part, each part is written by cimwrite into a file of its own, and the files are read in turn, each with the result so far as start_dict, then the model comes back as from one file: same identifiers in order, classes, attribute values, references across the files, and collections (many-to-many ones stay empty, as with one file).',
 'every model of CIM15 objects, every division into any number of parts, every object graph it is read into','unbounded graphs and divisions; references between objects of different files',[W+':cimwrite',R+':cimread'])
p('C88','Files can be merged',
 'If a model that refers to nothing outside it is stored in several files as in C87, then reading the files in turn and writing the result gives exactly the text cimwrite gives for the whole model.',
 'every model of CIM15 objects without references to other objects, every division into any number of parts, every object graph it is read into','unbounded graphs and divisions; equality of texts of different executions',[W+':cimwrite',R+':cimread'])
p('C89','A file cannot refer to a later one',
 'If a model is split over two files that describe different objects and the second is read with the result of the first as start_dict, all objects are there, but an object of the second file is linked to another object only if the second file says so, from either end. In particular, if the files were written by cimwrite, a to-one reference from the first file to an object of the second whose opposite end is a collection is None afterwards. Nothing else is lost: a link the files do not contradict is there exactly if the second file states it or the first does and the second describes neither object – for files written by cimwrite, the links within the first part and those with a to-one reference at an object of the second part –, and attributes that are not references have the values they have after reading everything at once.',
 'every document and split of it into two files; every model of CIM15 objects in two parts; every object graph it is read into','unbounded documents and graphs; absence of a link',[R+':cimread',W+':cimwrite'])
out=os.path.join(os.path.dirname(os.path.dirname(os.path.abspath(__file__))),'properties.jsonl')
with open(out,'w') as f:
    for x in P: f.write(json.dumps(x,ensure_ascii=False)+'\n')
print(len(P))
