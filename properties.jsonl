{"id": "C01", "title": "UUID conversion round trip", "statement": "Converting the UUID of a dataset from EcoSpold 2 to ILCD and converting the result back (or the other way round) returns the UUID one started from, in lower case.", "quantifier": "every well-formed UUID (36 characters, hyphens at 8-4-4-4-12, hexadecimal digits elsewhere), every key and every block cipher", "why_tests_cant": "2^122 identifiers; a test samples a handful of them", "anchors": ["src/Lavoisier/conversions/utils.py:uuid_from_uuid", "src/Lavoisier/conversions/ECS2_to_ILCD1_conversion.py:ECS2ToILCD1BasicFieldMapping", "src/Lavoisier/conversions/ILCD1_to_ECS2_conversion.py:ILCD1ToECS2BasicFieldMapping"]}
{"id": "C02", "title": "UUID conversion is injective", "statement": "Two different EcoSpold 2 datasets never receive the same ILCD UUID (and conversely), so converted data sets never silently replace each other.", "quantifier": "every pair of well-formed UUIDs, every key and block cipher", "why_tests_cant": "a statement about all pairs of 122-bit identifiers", "anchors": ["src/Lavoisier/conversions/utils.py:uuid_from_uuid"]}
{"id": "C03", "title": "UUID shape, version and variant digits", "statement": "The converted identifier is always a lower-case hexadecimal 8-4-4-4-12 UUID, and its version digit (13th) and variant digit (17th) are those of the original.", "quantifier": "every well-formed UUID and both directions", "why_tests_cant": "all identifiers, including the positions moved around the cipher call", "anchors": ["src/Lavoisier/conversions/utils.py:uuid_from_uuid"]}
{"id": "C04", "title": "Malformed UUIDs are rejected", "statement": "A text that is not a UUID is rejected with an error instead of being converted into a UUID of another object.", "quantifier": "every text; false of the code for over-long hexadecimal texts, true for texts with too few or with non-hexadecimal digits", "why_tests_cant": "all malformed texts", "anchors": ["src/Lavoisier/conversions/utils.py:uuid_from_uuid"]}
{"id": "C05", "title": "Split texts respect the limit", "statement": "When a text exceeds the length limit of an EcoSpold/ILCD field and is split, every piece produced has at most the limit number of characters. False of the code only for the limit 50, with which a longer sentence stops the conversion.", "quantifier": "every text (given as its sentences), every limit", "why_tests_cant": "unbounded texts, with carry-over between chunks", "anchors": ["src/Lavoisier/data_structures/utils.py:text_to_list"]}
{"id": "C06", "title": "Splitting a text loses no content", "statement": "Splitting a long text into several entries keeps every word of the text, in order. False of the code when a single sentence is longer than the limit: the last word of it is dropped (and for limits of 50 or less the sentence disappears or the conversion crashes). True whenever no sentence exceeds the limit.", "quantifier": "every list of sentences, every limit", "why_tests_cant": "depends on where the chunk boundaries fall relative to spaces", "anchors": ["src/Lavoisier/data_structures/utils.py:text_to_list"]}
{"id": "C07", "title": "One entry per language", "statement": "A multi-language field is written with exactly one entry per language used, the entries sorted by language code.", "quantifier": "every sequence of additions of (index, language, text) entries", "why_tests_cant": "all histories of additions in all orders", "anchors": ["src/Lavoisier/data_structures/validators/general_validators.py:MultiLangString", "src/Lavoisier/data_structures/validators/general_validators.py:BasicDictString"]}
{"id": "C08", "title": "Multi-language text is kept in index order", "statement": "For each language the text written is made of the texts added for that language, ordered by paragraph index (additions to the same index joined by the separator in order of addition, paragraphs joined by newline); nothing is dropped or duplicated.", "quantifier": "every sequence of additions", "why_tests_cant": "all histories of additions in all orders", "anchors": ["src/Lavoisier/data_structures/validators/general_validators.py:MultiLangString"]}
{"id": "C09", "title": "Length limits of fields are enforced", "statement": "With limits on, a limited text field that is written never exceeds its limit: the conversion fails with ValueError instead; with `ignore_limits` the text is always written unchanged.", "quantifier": "every limit (upper bound or range), every sequence of texts added", "why_tests_cant": "all lengths and all histories", "anchors": ["src/Lavoisier/data_structures/validators/general_validators.py:return_limited_string", "src/Lavoisier/converter.py:Converter.convert"]}
{"id": "C10", "title": "Enumerated fields only hold listed values, each once", "statement": "An enumerated list field holds only values of its enumeration, without duplicates, in order of first addition; anything else is rejected and leaves the field unchanged.", "quantifier": "every sequence of additions to the field", "why_tests_cant": "all histories", "anchors": ["src/Lavoisier/data_structures/validators/general_validators.py:return_enum", "src/Lavoisier/data_structures/validators/general_validators.py:unique_list_add"]}
{"id": "C11", "title": "The latest review date is kept whatever the order", "statement": "The date of last revision written is the latest of the dates added, independently of the order in which the reviews are read.", "quantifier": "every sequence of dates, every permutation of it", "why_tests_cant": "all orders of all histories", "anchors": ["src/Lavoisier/data_structures/validators/ILCD1_validators.py:ReviewDateTime", "src/Lavoisier/data_structures/validators/general_validators.py:return_comparisson_add"]}
{"id": "C12", "title": "Numeric fields accept exactly their documented range", "statement": "Integer code fields accept exactly the listed codes, four digit fields exactly non-negative four digit numbers, Int6 fields exactly 0..999999, percentages exactly 0..100; all others raise ValueError.", "quantifier": "every integer / number", "why_tests_cant": "unbounded inputs, boundaries", "anchors": ["src/Lavoisier/data_structures/validators/ECS2_validators.py:InheritanceDepthINT", "src/Lavoisier/data_structures/validators/general_validators.py:return_collection", "src/Lavoisier/data_structures/validators/general_validators.py:return_limited_int", "src/Lavoisier/data_structures/validators/ILCD1_validators.py:Year", "src/Lavoisier/data_structures/validators/ECS2_validators.py:Percent"]}
{"id": "C13", "title": "Pattern fields accept exactly the pattern", "statement": "A UUID, version or CAS field accepts exactly the texts of its format. False of the code: the pattern is only matched as a prefix, so trailing garbage is accepted. True: every accepted text starts with a well-formed value, and every text with no well-formed prefix is rejected.", "quantifier": "every text", "why_tests_cant": "all texts", "anchors": ["src/Lavoisier/data_structures/validators/general_validators.py:return_pattern", "src/Lavoisier/data_structures/validators/general_validators.py:UUID", "src/Lavoisier/data_structures/validators/ILCD1_validators.py:Version"]}
{"id": "C14", "title": "Indexed paragraphs are written in index order", "statement": "An EcoSpold text-and-image field lists its paragraphs by increasing index. False of the code for ten or more paragraphs (order is lexicographic: 10 before 2); true while all indices have one digit.", "quantifier": "every sequence of additions", "why_tests_cant": "needs more than nine paragraphs; all histories", "anchors": ["src/Lavoisier/data_structures/validators/general_validators.py:IndexedMultiLangString"]}
{"id": "C15", "title": "Named text variables are unique", "statement": "A field with named texts never holds two entries of the same name, whatever is added; adding a used name raises ValueError.", "quantifier": "every sequence of additions", "why_tests_cant": "all histories", "anchors": ["src/Lavoisier/data_structures/validators/ECS2_validators.py:NamedString"]}
{"id": "C16", "title": "Unknown fields are rejected without effect", "statement": "Setting a field that the format does not define raises AttributeError and leaves the data set unchanged.", "quantifier": "every schema, every data set state, every field name and value", "why_tests_cant": "all schemas, all states", "anchors": ["src/Lavoisier/data_structures/main.py:DotDict.__setitem__"]}
{"id": "C17", "title": "A single-valued field is set at most once", "statement": "A field that occurs at most once in the format keeps its first value: a second assignment raises ValueError and never replaces it.", "quantifier": "every schema and every sequence of assignments", "why_tests_cant": "all histories", "anchors": ["src/Lavoisier/data_structures/main.py:DotDict.__setitem__"]}
{"id": "C18", "title": "A failing assignment has no effect", "statement": "An assignment that raises an error leaves the data set as it was. False of the code: assigning a list of two values to a single-valued field stores the first value and then raises. True for every assignment of one value.", "quantifier": "every schema, state and assigned value", "why_tests_cant": "all states and inputs", "anchors": ["src/Lavoisier/data_structures/main.py:DotDict.__setitem__"]}
{"id": "C19", "title": "Mandatory fields are present in every written data set", "statement": "A data set is written only if all mandatory fields are present at every level of nesting; otherwise AttributeError is raised.", "quantifier": "every schema and every data set, at any depth", "why_tests_cant": "unbounded nesting", "anchors": ["src/Lavoisier/data_structures/main.py:DotDict.get_dict"]}
{"id": "C20", "title": "Fields are written in the order of the format", "statement": "The children of every element are written in the order number of the schema, at every depth, and values of repeated fields keep their order of addition, none lost.", "quantifier": "every schema and data set, at any depth", "why_tests_cant": "unbounded nesting, all insertion orders", "anchors": ["src/Lavoisier/data_structures/main.py:DotDict.get_dict"]}
{"id": "C21", "title": "Distinct fields get distinct XML names", "statement": "In both formats no two fields of one element are written under the same XML name, so no field overwrites another one in the output.", "quantifier": "every element class of the EcoSpold 2 and ILCD schemas and every pair of their fields", "why_tests_cant": "exhaustive over both schema tables", "anchors": ["src/Lavoisier/data_structures/main.py:DotDict.get_dict", "src/Lavoisier/data_structures/ECS2_structure.py:VALID", "src/Lavoisier/data_structures/ILCD1_structure.py:VALID"]}
{"id": "C22", "title": "Every requested XML element is delivered once, in document order", "statement": "Reading a data set calls the mapping of a field exactly once for each XML element (and attribute) on the field's path, in document (closing) order, and for nothing else.", "quantifier": "every XML tree and every set of mapped paths", "why_tests_cant": "all documents", "anchors": ["src/Lavoisier/formats/utils.py:XMLStreamIterable"]}
{"id": "C23", "title": "Repeated XML children all survive", "statement": "In the value handed to a field mapping, the children with one tag appear as many times and in the same order as in the file, at every depth.", "quantifier": "every XML tree", "why_tests_cant": "unbounded trees", "anchors": ["src/Lavoisier/formats/utils.py:XMLStreamIterable.elem2dict"]}
{"id": "C24", "title": "No existing file is overwritten", "statement": "The name chosen for an output file is never the name of an existing file; it is the base name itself when free, else the one with the smallest free number.", "quantifier": "every set of existing files and every base name", "why_tests_cant": "all directory states", "anchors": ["src/Lavoisier/formats/abstractions.py:OutputTemplate.check_name_for_existence"]}
{"id": "C25", "title": "One output per input in to_file mode", "statement": "Converting a directory in to_file mode writes, for each input file in order, one output holding the data of that file only, all under different names.", "quantifier": "every list of input files and every state of the output directory", "why_tests_cant": "all directory contents, state carried between files", "anchors": ["src/Lavoisier/converter.py:Converter.convert", "src/Lavoisier/formats/abstractions.py:OutputTemplate"]}
{"id": "C26", "title": "One database in to_database mode", "statement": "Converting a directory of EcoSpold 2 files in to_database mode produces one archive containing the data set of every input file.", "quantifier": "every non-empty list of input files; false when two inputs have the same UUID (the later replaces the earlier)", "why_tests_cant": "all directory contents", "anchors": ["src/Lavoisier/converter.py:Converter.convert", "src/Lavoisier/formats/ILCD1_format.py:ILCD1Output"]}
{"id": "C27", "title": "Options only take booleans", "statement": "Setting an option of a converter to anything but a boolean raises TypeError and keeps the previous value, and every option always holds a boolean.", "quantifier": "every sequence of attribute assignments", "why_tests_cant": "all histories", "anchors": ["src/Lavoisier/converter.py:Converter.__setattr__"]}
{"id": "C28", "title": "get_converter validates its arguments", "statement": "get_converter returns a converter only for known formats with valid elementary flow lists, an existing input path and an existing output directory; any other call raises an error.", "quantifier": "every argument tuple and file system", "why_tests_cant": "all argument combinations", "anchors": ["src/Lavoisier/converter.py:get_converter"]}
{"id": "C29", "title": "A failed conversion does not disturb the next one", "statement": "After a conversion fails, the same converter converts other files as a new one would. False of the code: the partially filled data set is kept and the next conversion fails with a uniqueness error.", "quantifier": "every sequence of conversions with failures at any point", "why_tests_cant": "all failure points", "anchors": ["src/Lavoisier/converter.py:Converter.convert", "src/Lavoisier/converter.py:Converter.start_conversion"]}
{"id": "C30", "title": "Lognormal uncertainty round trip", "statement": "The variance and mean of a lognormal uncertainty exported to ILCD and imported back are the original ones; the same for normal, triangular and uniform.", "quantifier": "every real mean and every variance >= 0", "why_tests_cant": "all real parameters", "anchors": ["src/Lavoisier/conversions/ECS2_to_ILCD1_conversion.py:UncertaintyConversion", "src/Lavoisier/conversions/ILCD1_to_ECS2_conversion.py:UncertaintyConversion"]}
{"id": "C31", "title": "Uncertainty bounds enclose the amount", "statement": "The minimum and maximum amounts written for an exchange enclose its mean value. False of the code for negative lognormal means and for negative factors; true for positive ones.", "quantifier": "every mean, variance and factor", "why_tests_cant": "all real parameters", "anchors": ["src/Lavoisier/conversions/ECS2_to_ILCD1_conversion.py:UncertaintyConversion"]}
{"id": "C32", "title": "Unit conversion of amounts is linear and composes", "statement": "Multiplying, dividing and adding amounts acts on the value as arithmetic does, and the uncertainty kept afterwards is the exact one of the resulting distribution, or none.", "quantifier": "every pair of amounts and uncertainties", "why_tests_cant": "all real parameters", "anchors": ["src/Lavoisier/conversions/ECS2_to_ILCD1_conversion.py:ECS2ToILCD1Amount"]}
{"id": "C33", "title": "Exchange identifiers are consecutive and unique", "statement": "In a converted ILCD process the exchanges carry the internal identifiers 1, 2, 3, ... without repetition, and the reference flows listed are exactly the reference products.", "quantifier": "every sequence of exchanges", "why_tests_cant": "all data sets", "anchors": ["src/Lavoisier/conversions/ECS2_to_ILCD1_conversion.py:FlowConversion.get_direction"]}
{"id": "C34", "title": "Flow versions distinguish flow properties", "statement": "Within one data set, a flow exported with the same flow properties gets the same version and one with other properties a new version, so no two different flow data sets share identifier and version. False between the files of a database conversion, where the counter is reset.", "quantifier": "every sequence of exchanges", "why_tests_cant": "all histories", "anchors": ["src/Lavoisier/conversions/ECS2_to_ILCD1_conversion.py:IntermediateFlow.get_flow_dict"]}
{"id": "C35", "title": "Merging equal flows conserves amounts", "statement": "When equal elementary flows of a data set are merged, there is one exchange per flow and direction and its amount is the sum of the merged amounts: totals are conserved.", "quantifier": "every list of exchanges", "why_tests_cant": "all data sets", "anchors": ["src/Lavoisier/conversions/ECS2_to_ILCD1_conversion.py:ECS2ToILCD1FieldMapping.reset_conversion", "src/Lavoisier/conversions/ILCD1_to_ECS2_conversion.py:ILCD1ToECS2FieldMapping.reset_conversion"]}
{"id": "C36", "title": "Elementary flows are converted by the mapping or reported", "statement": "Every elementary exchange either appears in the output with the target flow of the mapping file and its amount times the mapping factor, or is listed as not converted; none disappears silently.", "quantifier": "every mapping table and every list of exchanges", "why_tests_cant": "all mapping files", "anchors": ["src/Lavoisier/conversions/ECS2_to_ILCD1_conversion.py:ElementaryFlow", "src/Lavoisier/conversions/ILCD1_to_ECS2_conversion.py:FlowReferenceConversion.get_flow"]}
{"id": "C37", "title": "Each reference is written once", "statement": "A source, contact or other data set referenced several times is written once, and all the references to it carry the same identifier.", "quantifier": "every sequence of references", "why_tests_cant": "all histories", "anchors": ["src/Lavoisier/conversions/ECS2_to_ILCD1_conversion.py:ReferenceConversion", "src/Lavoisier/conversions/ILCD1_to_ECS2_conversion.py:SourceReferenceConversion", "src/Lavoisier/conversions/ILCD1_to_ECS2_conversion.py:ContactReferenceConversion"]}
{"id": "C38", "title": "Variables are defined once and before use", "statement": "In a converted process every variable appears exactly once in the parameter list and every variable a formula uses is defined.", "quantifier": "every set of variables and formulas", "why_tests_cant": "all dependency graphs", "anchors": ["src/Lavoisier/conversions/ECS2_to_ILCD1_conversion.py:VariableConversion"]}
{"id": "C39", "title": "Formulas keep their meaning", "statement": "Renaming variables in a formula keeps its value. False of the ILCD to EcoSpold conversion: renaming is textual, repeated and touches names that contain the renamed name.", "quantifier": "every formula and variable set", "why_tests_cant": "all formulas", "anchors": ["src/Lavoisier/conversions/ILCD1_to_ECS2_conversion.py:VariableConversion.change_formula"]}
{"id": "C40", "title": "Exchange groups written are always valid", "statement": "The input/output group written for an exchange is a code the EcoSpold 2 schema accepts for that kind of exchange. False for an elementary reference flow (group 0).", "quantifier": "every exchange type, direction and reference flag", "why_tests_cant": "all combinations in the context of the schema", "anchors": ["src/Lavoisier/conversions/ILCD1_to_ECS2_conversion.py:FlowConversion.finish_flow_info", "src/Lavoisier/data_structures/validators/ECS2_validators.py:OutputGroupElementaryINT"]}
{"id": "C41", "title": "EcoSpold exchange identifiers are distinct", "statement": "No two exchanges of a converted EcoSpold 2 data set have the same identifier, even when they refer to the same flow.", "quantifier": "every sequence of exchanges; every hash without collisions", "why_tests_cant": "all data sets", "anchors": ["src/Lavoisier/conversions/ILCD1_to_ECS2_conversion.py:FlowConversion.finish_flow_info"]}
{"id": "C42", "title": "Classification of energy values", "statement": "The energy value code written is gross when gross calorific values outnumber net ones three to one, net in the opposite case and undefined otherwise, never contradicting the majority.", "quantifier": "every pair of counts", "why_tests_cant": "all counts", "anchors": ["src/Lavoisier/conversions/ILCD1_to_ECS2_conversion.py:ILCD1ToECS2FieldMapping.reset_conversion"]}
{"id": "C43", "title": "Code tables translate without loss", "statement": "Codes that have a unique counterpart in the other format return to themselves after conversion there and back, and every code written is accepted by the target field.", "quantifier": "every entry of every conversion table", "why_tests_cant": "exhaustive over all the tables and both schemas", "anchors": ["src/Lavoisier/conversions/data.py"]}
{"id": "C44", "title": "Data set version round trip", "statement": "The version number of a data set converted to ILCD and back has the same major release and minor revision, and the version text is a valid ILCD version. False for release numbers of ten and more.", "quantifier": "every version number", "why_tests_cant": "all numbers", "anchors": ["src/Lavoisier/conversions/ECS2_to_ILCD1_conversion.py:ECS2ToILCD1FieldMapping", "src/Lavoisier/conversions/ILCD1_to_ECS2_conversion.py:ILCD1ToECS2FieldMapping"]}
{"id": "C45", "title": "Water, dry and wet mass are consistent", "statement": "The properties written for a product with known water content satisfy dry mass + water mass = wet mass.", "quantifier": "every water content", "why_tests_cant": "all real values", "anchors": ["src/Lavoisier/conversions/ILCD1_to_ECS2_conversion.py:FlowConversion"]}
{"id": "C46", "title": "ILCD elementary flow list conversion rescales amounts correctly", "statement": "When an ILCD data set moves to another elementary flow list, the amount and its uncertainty are multiplied by the same factor, or the exchange is left unconverted and reported.", "quantifier": "every unit, factor and amount", "why_tests_cant": "all values", "anchors": ["src/Lavoisier/conversions/ILCD1_to_ILCD1_conversion.py:ElementaryFlowConversion"]}
{"id": "C47", "title": "Reading a group does not change the data set", "statement": "Reading a group of the data set under construction leaves what will be written unchanged. False of the code: reading a group that is absent creates it, which can even make the data set unwritable. True when the groups on the path are already there.", "quantifier": "every data set and path", "why_tests_cant": "all trees and all paths", "anchors": ["src/Lavoisier/data_structures/main.py:DotDict.__getitem__"]}
{"id": "C48", "title": "Nested groups are of the right class", "statement": "Every nested group of a data set is an instance of the class its field prescribes. False of the code when ready-made instances are assigned; true for data sets built from plain values.", "quantifier": "every history of assignments", "why_tests_cant": "all histories and depths", "anchors": ["src/Lavoisier/data_structures/main.py:DotDict.__new__", "src/Lavoisier/data_structures/main.py:DotDict.__setitem__"]}
{"id": "C49", "title": "Coordinates are kept within the globe", "statement": "A coordinate pair is accepted exactly when it is a latitude of -90..90 and a longitude of -180..180. False of the code: -90 (the south pole) is refused, longitudes such as 999 are accepted and text after the numbers is ignored; latitudes outside -90..90 are refused.", "quantifier": "every text", "why_tests_cant": "all texts of the pattern language", "anchors": ["src/Lavoisier/data_structures/validators/ILCD1_validators.py:GIS"]}
{"id": "C50", "title": "Boolean fields round trip", "statement": "A boolean field accepts exactly the documented texts and values and what it writes is accepted again with the same meaning.", "quantifier": "every value", "why_tests_cant": "all values", "anchors": ["src/Lavoisier/data_structures/validators/general_validators.py:Bool", "src/Lavoisier/data_structures/validators/ECS2_validators.py:Bool"]}
{"id": "C51", "title": "Names of named texts respect their limit", "statement": "The name of a named text has at most forty characters. False of the code: the limit is declared but never checked, a name of any length is written.", "quantifier": "every name", "why_tests_cant": "all names", "anchors": ["src/Lavoisier/data_structures/validators/ECS2_validators.py:NamedString"]}
{"id": "C52", "title": "Names and classifications are written in full", "statement": "A name (or classification) field shows the whole text of its first (last) entry by index. True if the text is within the limit; otherwise only its first (last) piece is written and the rest is lost.", "quantifier": "every history of additions and every sentence splitting", "why_tests_cant": "all histories", "anchors": ["src/Lavoisier/data_structures/validators/ECS2_validators.py:Name", "src/Lavoisier/data_structures/validators/ECS2_validators.py:ExchangeNameString80", "src/Lavoisier/data_structures/validators/ECS2_validators.py:ClassificationValueString120"]}
{"id": "C53", "title": "No synonym is lost", "statement": "Every synonym given is written, in index order. False of the code: synonyms over eighty characters are left out without notice, even when limits are ignored; all others are written.", "quantifier": "every history of additions", "why_tests_cant": "all histories", "anchors": ["src/Lavoisier/data_structures/validators/ECS2_validators.py:String80_NLR"]}
{"id": "C54", "title": "Text between child elements is kept", "statement": "All the text of an element of the source file reaches the field mapping. False of the code: text that follows a child element is never seen; a file that differs only in such text is read identically.", "quantifier": "every XML tree", "why_tests_cant": "all trees", "anchors": ["src/Lavoisier/formats/utils.py:XMLStreamIterable.elem2dict"]}
{"id": "C55", "title": "Every mapped path exists in the source format", "statement": "Each path a field mapping waits for can occur in a source file of the format. False of the code for ILCD to EcoSpold2: four paths are misspelt (or miss the attribute sign) and their mappings are never called, whatever the file; true for EcoSpold2 to ILCD and for ILCD to ILCD.", "quantifier": "every conforming source document", "why_tests_cant": "quantifies over all documents of the format, of any size", "anchors": ["src/Lavoisier/conversions/ILCD1_to_ECS2_conversion.py:ILCD1ToECS2FieldMapping.mapping", "src/Lavoisier/conversions/ECS2_to_ILCD1_conversion.py:ECS2ToILCD1FieldMapping.mapping", "src/Lavoisier/conversions/ILCD1_to_ILCD1_conversion.py:ILCD1ToILCD1FieldMapping.mapping"]}
{"id": "C56", "title": "No field of the source format is ignored", "statement": "Every field of the source format lies on or below a mapped path, so that it is handed to a mapping. False of the code: impact indicators of EcoSpold2 and five fields of ILCD are never handed over; all others are.", "quantifier": "every path of the format", "why_tests_cant": "exhaustive over all paths of both field structures", "anchors": ["src/Lavoisier/conversions/ILCD1_to_ECS2_conversion.py:ILCD1ToECS2FieldMapping.mapping", "src/Lavoisier/conversions/ECS2_to_ILCD1_conversion.py:ECS2ToILCD1FieldMapping.mapping", "src/Lavoisier/conversions/ILCD1_to_ILCD1_conversion.py:ILCD1ToILCD1FieldMapping.mapping"]}
{"id": "C57", "title": "Converters do not influence each other", "statement": "The names of the files a converter writes carry its own mark, whatever other converters exist. False of the code: the mark is a class attribute set when a converter first writes, so an older converter uses the mark of the newest.", "quantifier": "every pair of converters and every history", "why_tests_cant": "needs all interleavings of converters", "anchors": ["src/Lavoisier/converter.py:Converter._set_format"]}
{"id": "C58", "title": "Changed settings take effect", "statement": "A change of the elementary flow mapping or of convert_additional_fields takes effect at the next conversion. False of the code as long as the version of the files stays the same; then the change has no effect at all.", "quantifier": "every converter state, settings and files", "why_tests_cant": "quantifies over all runs with and without the change", "anchors": ["src/Lavoisier/converter.py:Converter.start_conversion", "src/Lavoisier/converter.py:Converter._set_field_mapping"]}
{"id": "C59", "title": "Information of one file does not reach the next", "statement": "What is read in advance from a file (its language, its flow references) is used for that file only. False of the code: when the next file lacks it, that of the earlier file is used.", "quantifier": "every sequence of files", "why_tests_cant": "all histories of files", "anchors": ["src/Lavoisier/converter.py:Converter._set_post_instance_file_information"]}
{"id": "C60", "title": "Accepted format pairs can be converted", "statement": "If get_converter accepts two formats, there is a field mapping for them. False of the code: six of the nine accepted pairs have none and every conversion fails; exactly the listed versions of the other three pairs are converted.", "quantifier": "every pair of formats and every version", "why_tests_cant": "all versions, all files", "anchors": ["src/Lavoisier/converter.py:get_converter", "src/Lavoisier/conversions/factories.py:MappingFactory"]}
{"id": "C61", "title": "A directory of ILCD archives is converted archive by archive", "statement": "In to_database mode each archive of a directory gives exactly one archive with its own processes only, in order and under new, different names.", "quantifier": "every directory of archives of any number of processes", "why_tests_cant": "unbounded numbers of archives and processes", "anchors": ["src/Lavoisier/formats/ILCD1_format.py:ILCD1Input._multiple_file_input", "src/Lavoisier/converter.py:Converter.convert"]}
{"id": "C62", "title": "The functional unit names the reference product", "statement": "The text of the functional unit of a converted process names a reference product with its amount and unit whenever there is one reference product, and is left out when there are several. False of the code for an odd number of several reference products: the text is written and removed in turn, so it names the last of three.", "quantifier": "every list of exchanges", "why_tests_cant": "unbounded number of reference products", "anchors": ["src/Lavoisier/conversions/ECS2_to_ILCD1_conversion.py:FlowConversion.get_direction"]}
{"id": "C63", "title": "The allocation of the source is transferred", "statement": "If an activity declares a master allocation property, the exchanges of the converted process carry allocation factors in proportion to that property. False of the code: the property is stored under another attribute name than the one read, so no exchange ever gets a share.", "quantifier": "every list of exchanges, every declared property, every list of properties", "why_tests_cant": "a statement on all inputs that nothing is written", "anchors": ["src/Lavoisier/conversions/ECS2_to_ILCD1_conversion.py:FlowConversion.get_allocation", "src/Lavoisier/conversions/ECS2_to_ILCD1_conversion.py:ECS2ToILCD1FieldMapping"]}
{"id": "C64", "title": "Summed exchanges carry no stale uncertainty", "statement": "The bounds written beside the value of a summed elementary exchange belong to that value. False of the code: when the sum has no uncertainty any more, the bounds of the first exchange stay, and the maximum can be below the value.", "quantifier": "every pair of uncertain exchanges", "why_tests_cant": "real numbers, all amounts and variances", "anchors": ["src/Lavoisier/conversions/ECS2_to_ILCD1_conversion.py:ECS2ToILCD1FieldMapping.reset_conversion"]}
{"id": "C65", "title": "Variables carry the amounts", "statement": "In the conversion of EcoSpold2 to ILCD, the variable an exchange refers to has the amount of that exchange as its value and agrees with its formula. False of the code for elementary flows (the amount is multiplied by the mapping factor, the formula is not), for two amounts with the same variable name (the first value stays) and for converted variables of named amounts without formula (the link to the original is lost).", "quantifier": "every list of parameters, exchanges and properties, every unit factor", "why_tests_cant": "unbounded lists of amounts sharing one name space of variables", "anchors": ["src/Lavoisier/conversions/ECS2_to_ILCD1_conversion.py:VariableConversion", "src/Lavoisier/conversions/ECS2_to_ILCD1_conversion.py:FlowConversion.construct_variable"]}
{"id": "C66", "title": "References and unit conversions in formulas are resolved", "statement": "Every Ref('...') of an EcoSpold2 formula is replaced by the amount (or the production volume) of the exchange it refers to, every UnitConversion(...) by a product with the factor of the units, and the rest of the formula stays as it is. A reference to something unknown is an error. False of the code for the production volume of an exchange without one: the text None is written.", "quantifier": "every formula with any number of references and conversions, every table of variables", "why_tests_cant": "unbounded formulas, all texts between the references", "anchors": ["src/Lavoisier/conversions/ECS2_to_ILCD1_conversion.py:VariableConversion.correct_ref", "src/Lavoisier/conversions/ECS2_to_ILCD1_conversion.py:VariableConversion.correct_unit"]}
{"id": "C67", "title": "Decimal commas and percent signs in formulas keep their meaning", "statement": "A formula without percent signs and decimal commas is written unchanged; decimal commas become points and a percent sign a division by hundred. False of the code for formulas with a decimal comma and a function of several arguments: all commas are replaced, so the arguments are joined.", "quantifier": "every formula", "why_tests_cant": "unbounded formulas", "anchors": ["src/Lavoisier/conversions/ECS2_to_ILCD1_conversion.py:VariableConversion.correct_other"]}
{"id": "C68", "title": "Codes written into comments are recovered", "statement": "The attributes of EcoSpold2 that have no field in ILCD (name identifier, special activity type, inheritance, parent, technology level, validity, energy values, start and end of the activity) are written as lines of comments and come back when the process is converted to EcoSpold2, while the rest of the comment stays. False of the code for the kind of inheritance of a data set with a parent (always -1) and for undefined energy values (replaced by a choice from the exchanges).", "quantifier": "every combination of codes and every comment that does not use the marks", "why_tests_cant": "all texts around the marks, all combinations", "anchors": ["src/Lavoisier/conversions/ECS2_to_ILCD1_conversion.py:ECS2ToILCD1FieldMapping", "src/Lavoisier/conversions/ILCD1_to_ECS2_conversion.py:ILCD1ToECS2BasicFieldMapping.general_comment", "src/Lavoisier/formats/helpers.py"]}
{"id": "C69", "title": "Comments of the user do not break the conversion", "statement": "A comment that is not written by the converter is carried over whatever it says. False of the code: a text such as 'Energy: ' or 'Validity: ' followed by anything but the known phrases stops the conversion, and a marked part of a line of the user's text is cut out. Exactly the comments in which the first mark is followed by an unknown phrase fail.", "quantifier": "every text", "why_tests_cant": "all texts", "anchors": ["src/Lavoisier/conversions/ILCD1_to_ECS2_conversion.py:ILCD1ToECS2BasicFieldMapping", "src/Lavoisier/formats/helpers.py"]}
{"id": "C70", "title": "Tags survive the round trip", "statement": "The tags of an EcoSpold2 activity come back after a conversion to ILCD and back. False of the code with more than one tag: only the first comes back, followed by an empty one.", "quantifier": "every list of tags", "why_tests_cant": "unbounded lists of tags", "anchors": ["src/Lavoisier/conversions/ECS2_to_ILCD1_conversion.py:ECS2ToILCD1FieldMapping", "src/Lavoisier/conversions/ILCD1_to_ECS2_conversion.py:ILCD1ToECS2BasicFieldMapping.general_comment"]}
{"id": "C71", "title": "The system model survives the round trip", "statement": "The name of the system model comes back with its identifier after a conversion to ILCD and back, and every system model can be converted. False of the code for names that are not in its table: the conversion stops.", "quantifier": "every system model name", "why_tests_cant": "all names", "anchors": ["src/Lavoisier/conversions/ECS2_to_ILCD1_conversion.py:ECS2ToILCD1FieldMapping", "src/Lavoisier/conversions/ILCD1_to_ECS2_conversion.py:ILCD1ToECS2FieldMapping.reset_conversion", "src/Lavoisier/conversions/data.py:system_model_"]}
{"id": "C72", "title": "The direction of an exchange is kept", "statement": "An exchange that enters the process in ILCD is an input in EcoSpold2, and one that leaves it an output, or its sign is changed. False of the code for reference flows: every one is written as an output with the same amount, also the waste that enters a treatment process.", "quantifier": "every list of exchanges", "why_tests_cant": "unbounded lists of exchanges, all combinations of reference, direction and type", "anchors": ["src/Lavoisier/conversions/ILCD1_to_ECS2_conversion.py:ILCD1ToECS2FlowConversion.finish_flow_info"]}
{"id": "C73", "title": "Unit identifier and unit name agree", "statement": "The identifier and the name of the unit written for an exchange denote the same unit. False of the code for elementary flows: the identifier is that of the first unit with the same dimension in a table, whatever its size.", "quantifier": "every list of exchanges, every table of units and of elementary flows", "why_tests_cant": "all tables and exchanges", "anchors": ["src/Lavoisier/conversions/ILCD1_to_ECS2_conversion.py:ILCD1ToECS2FlowConversion.get_elementary_flow_info"]}
{"id": "C74", "title": "Summed exchanges do not depend on chance", "statement": "What is written for equal elementary flows is determined by the data set. False of the code in the conversion of ILCD to EcoSpold2: the exchanges are taken out of a set of objects, whose order is arbitrary, and the first one gives the unit, the variable, the formula, the uncertainty and the comments of the sum.", "quantifier": "every list of exchanges, every order of the set", "why_tests_cant": "the order of a set of objects differs from run to run, a test sees one of them", "anchors": ["src/Lavoisier/conversions/ILCD1_to_ECS2_conversion.py:ILCD1ToECS2FieldMapping.reset_conversion"]}
{"id": "C75", "title": "Flow properties hold per unit of the flow", "statement": "A property of a product of EcoSpold2 that has a flow property of ILCD is written with the mean value per unit of the ILCD flow: a quantity q of the product holds the same total of it before and after, whether the property was given per unit, per dry mass or per volume. False of the code for concentrations (divided by the amount of the exchange), for contents without a known dry mass (left out) and for the water of a product without dry mass.", "quantifier": "every list of properties of an exchange, every amount, every conversion factor", "why_tests_cant": "unbounded lists of properties and a field of numbers; the order of the properties decides what is known when", "anchors": ["src/Lavoisier/conversions/ECS2_to_ILCD1_conversion.py:Property", "src/Lavoisier/conversions/ECS2_to_ILCD1_conversion.py:IntermediateFlowConversion"]}
{"id": "C76", "title": "The flow properties of a flow have distinct internal numbers", "statement": "The internal identifiers of the flow properties of a flow written to ILCD are pairwise distinct and differ from that of the reference flow property.", "quantifier": "every list of properties", "why_tests_cant": "unbounded lists of properties", "anchors": ["src/Lavoisier/conversions/ECS2_to_ILCD1_conversion.py:IntermediateFlowConversion"]}
{"id": "C77", "title": "A flow property is given once", "statement": "A flow written to ILCD has at most one mean value for each flow property. False of the code: a content and a concentration of the same substance give the same flow property twice with different values.", "quantifier": "every list of properties", "why_tests_cant": "all combinations of some hundred properties", "anchors": ["src/Lavoisier/conversions/ECS2_to_ILCD1_conversion.py:Property", "src/Lavoisier/conversions/data.py"]}
{"id": "C78", "title": "The properties of an EcoSpold2 product are those of the flow file", "statement": "The properties written for a product in EcoSpold2 are exactly those of the flow properties of its ILCD flow that have a counterpart, with the value of the file (contents relative to the dry mass), and the masses that follow from the water content; the exchange can be converted exactly when all the needed numbers can be read.", "quantifier": "every flow file with any number of flow properties, every unit", "why_tests_cant": "unbounded lists of flow properties, a field of numbers", "anchors": ["src/Lavoisier/conversions/ILCD1_to_ECS2_conversion.py:ILCD1ToECS2FlowConversion", "src/Lavoisier/conversions/data.py"]}
{"id": "C79", "title": "Property identifiers belong to EcoSpold2", "statement": "The property identifiers written to EcoSpold2 are identifiers of EcoSpold2. False of the code with the option to use master data: the identifiers of the ILCD flow properties are written, none of which is an identifier of EcoSpold2 in the tables.", "quantifier": "every flow file", "why_tests_cant": "all rows of the tables and all files", "anchors": ["src/Lavoisier/conversions/ILCD1_to_ECS2_conversion.py:ILCD1ToECS2FlowConversion"]}
{"id": "C80", "title": "Allocation fractions are kept", "statement": "Each fraction by which an exchange of ILCD is allocated to a co-product is written as a property of the exchange in EcoSpold2 that names the co-product. False of the code when an exchange has a single allocation (the conversion stops) and when two co-products have the same name (the last fraction stays).", "quantifier": "every list of allocations and co-products", "why_tests_cant": "unbounded lists", "anchors": ["src/Lavoisier/conversions/ILCD1_to_ECS2_conversion.py:ILCD1ToECS2FlowConversion"]}
{"id": "C81", "title": "Properties survive the round trip", "statement": "A content or a heating value of a product of ILCD comes back as the same flow property with the same value after the conversion to EcoSpold2 and back. False of the code for contents of a product without a water content or dry mass: none of them comes back.", "quantifier": "every flow file, every value, every water content", "why_tests_cant": "composition of two programs over unbounded lists and a field of numbers", "anchors": ["src/Lavoisier/conversions/ECS2_to_ILCD1_conversion.py:Property", "src/Lavoisier/conversions/ILCD1_to_ECS2_conversion.py:ILCD1ToECS2FlowConversion", "src/Lavoisier/conversions/data.py"]}
{"id": "C82", "title": "A failed conversion does not disturb later ones", "statement": "A conversion that ends with an error leaves nothing behind in the process: every later conversion, by the same or another converter, ends as it does in a new process. False of the code: exchanges that cannot be added (with the options to sum and for parameters) make all later conversions from EcoSpold2 fail; a failure at the end of an ILCD file leaves its variables, which are written as parameters of the next data set or, if they cannot be written, make all later conversions fail.", "quantifier": "every sequence of conversions with any options and files, any number of exchanges and variables", "why_tests_cant": "unbounded sequences of conversions and shared state", "anchors": ["src/Lavoisier/converter.py:convert", "src/Lavoisier/conversions/ECS2_to_ILCD1_conversion.py:delete", "src/Lavoisier/conversions/ILCD1_to_ECS2_conversion.py:delete"]}
{"id": "C83", "title": "The error reported is the error that occurred", "statement": "A conversion that fails reports the error of the first file that cannot be converted. False of the code: cleaning up fails itself, from EcoSpold2 exactly in the cases that leave something behind, from ILCD whenever the file has been read completely.", "quantifier": "every list of files, every error", "why_tests_cant": "all points of failure", "anchors": ["src/Lavoisier/converter.py:convert", "src/Lavoisier/conversions/ECS2_to_ILCD1_conversion.py:delete", "src/Lavoisier/conversions/ILCD1_to_ECS2_conversion.py:delete"]}
{"id": "C84", "title": "Author, year and pages of a source are kept", "statement": "The author, the year and the pages of a source of EcoSpold2, which the program writes into the name of the source in ILCD, are found again when the data set is converted back. From names written by others, author, year and pages are found if they are there. False of the code: a name such as `Smith (2010)` loses the last letter of the author, and a year that belongs to the title is taken for the year of the source.", "quantifier": "every author, year, page and name, every citation", "why_tests_cant": "all texts; the composition of a writer with two regular expressions", "anchors": ["src/Lavoisier/formats/helpers.py:source_short_ref", "src/Lavoisier/conversions/ILCD1_to_ECS2_conversion.py:Source.get_source"]}
{"id": "C85", "title": "A reference leads to its own data set", "statement": "The file that is read for a reference to a source, a contact or a flow is the one of the data set and version referred to, and those that the program has written itself are found again. False of the code for files of others: if there is no file of that version and address, the first entry of the folder whose name contains the identifier is taken, whatever its version.", "quantifier": "every folder, every order in which it is listed, every reference", "why_tests_cant": "all folders; the choice depends on the order in which the system lists them", "anchors": ["src/Lavoisier/conversions/ILCD1_to_ECS2_conversion.py:get_file", "src/Lavoisier/conversions/ECS2_to_ILCD1_conversion.py:ReferenceConversion"]}
{"id": "C86", "title": "References to sources do not stop a conversion", "statement": "A data set that refers to sources is converted, wherever it refers to them and whatever they are called; in particular a data set that the program has written itself can be converted back. False of the code: an external document that is not called like an image or an icon stops the conversion, and sources of properties and parameters are written as such documents.", "quantifier": "every reference, every archive", "why_tests_cant": "all names and places; the composition of the two directions", "anchors": ["src/Lavoisier/conversions/ILCD1_to_ECS2_conversion.py:Source.get_source", "src/Lavoisier/conversions/ECS2_to_ILCD1_conversion.py:Property", "src/Lavoisier/conversions/ECS2_to_ILCD1_conversion.py:Parameter"]}
{"id": "C87", "title": "The source of an exchange is one source", "statement": "Identifier, author, year and pages of the source of an exchange are those of one source, the one that is cited by it. False of the code: with several sources the author is that of the last one and the year that of the last one that has a year; and since a source has one file, exchanges that cite different pages of it all come back with the pages of the first.", "quantifier": "every list of sources, every archive, all exchanges", "why_tests_cant": "all lists and histories", "anchors": ["src/Lavoisier/conversions/ILCD1_to_ECS2_conversion.py:Source.get_source", "src/Lavoisier/conversions/ECS2_to_ILCD1_conversion.py:ReferenceConversion.make_dataset"]}
{"id": "C88", "title": "Every person and company referred to has an entry in the master data", "statement": "An EcoSpold2 data set that names a person or a company by its identifier has an entry with this identifier, of that kind, in its master data, and one only. False of the code: without a file there is no entry, and one that is met first as a company has no entry as a person.", "quantifier": "every list of contacts in every role, every archive", "why_tests_cant": "all lists and histories", "anchors": ["src/Lavoisier/conversions/ILCD1_to_ECS2_conversion.py:ContactReferenceConversion"]}
{"id": "C89", "title": "The date and the version of a review are kept", "statement": "A review of EcoSpold2 that is converted to ILCD and back has the same date, the same version and the same details. False of the code: the second and third numbers of the version are exchanged, a version with the major release 0 is replaced by the next free default, the version is only found if there are further details, a date with a time is lost, and the kind of the review is added to the details each time.", "quantifier": "every date, every version, every text, every counter", "why_tests_cant": "all texts; the composition of a writer with two regular expressions", "anchors": ["src/Lavoisier/conversions/ECS2_to_ILCD1_conversion.py:Review", "src/Lavoisier/conversions/ILCD1_to_ECS2_conversion.py:Review"]}
{"id": "C90", "title": "Reviews by others are external", "statement": "A review whose reviewer has an address outside ecoinvent is an external one in ILCD, one by ecoinvent an internal one. False of the code: every review whose reviewer has an address is called internal, none is ever called external.", "quantifier": "every address", "why_tests_cant": "all texts", "anchors": ["src/Lavoisier/conversions/ECS2_to_ILCD1_conversion.py:Review"]}
{"id": "C91", "title": "A review keeps its reviewers", "statement": "A review of ILCD keeps its reviewers: each is named, and the identifier leads to an entry of the master data. False of the code: a review by several people has an identifier made from the names, for which there is no entry; names of more than 40 characters together stop the conversion, as does a reviewer without a short description; a review without reviewers is left out.", "quantifier": "every list of reviewers, every archive, every sequence of reviews", "why_tests_cant": "all lists and histories", "anchors": ["src/Lavoisier/conversions/ILCD1_to_ECS2_conversion.py:Review", "src/Lavoisier/conversions/ILCD1_to_ECS2_conversion.py:ContactReferenceConversion"]}
{"id": "C92", "title": "Access restrictions are kept", "statement": "The code of an EcoSpold2 data set that says who has access to it is the same after a conversion to ILCD and back, and an ILCD data set keeps to whom access is granted. False of the code: the codes 2 and 3 and a data set without a code come back as 1, and a data set with an owner but without a license after it, or with the text 'Restricted to ', stops the conversion.", "quantifier": "every code, every company, every sequence of entries of an ILCD document", "why_tests_cant": "all documents and texts; the composition of the two directions", "anchors": ["src/Lavoisier/conversions/ECS2_to_ILCD1_conversion.py:ECS2ToILCD1FieldMapping", "src/Lavoisier/conversions/ILCD1_to_ECS2_conversion.py:ILCD1ToECS2FieldMapping", "src/Lavoisier/conversions/data.py"]}
{"id": "C93", "title": "The time period is not shortened", "statement": "The time period of a data set converted to ILCD and back contains the original one, and is the same if it began with the first and ended with the last day of a year.", "quantifier": "every pair of days of which the years have four digits", "why_tests_cant": "all dates", "anchors": ["src/Lavoisier/conversions/ECS2_to_ILCD1_conversion.py:ECS2ToILCD1FieldMapping", "src/Lavoisier/conversions/ILCD1_to_ECS2_conversion.py:ILCD1ToECS2FieldMapping"]}
{"id": "C94", "title": "Every flow of an ILCD data set with another flow list comes with its files", "statement": "After the conversion to another flow list, the flow of every exchange is in the archive written, with the flow properties and unit groups that it refers to. False of the code: the flow properties of flows without a counterpart and all but the first flow property of flows that are not in the table are not saved.", "quantifier": "every data set, every archive, every table", "why_tests_cant": "all archives and sequences of exchanges", "anchors": ["src/Lavoisier/conversions/ILCD1_to_ILCD1_conversion.py:save_original", "src/Lavoisier/conversions/ILCD1_to_ILCD1_conversion.py:save_file"]}
{"id": "C95", "title": "Variables follow the amounts of a converted ILCD exchange", "statement": "When the amount of an exchange is multiplied, its variable has the value of its new formula, formulas can refer to the variables added, each variable is there once, and exchanges with the same variable are all converted. False of the code: the mean value is that before the multiplication, the names contain the characters of the units, the factor is added once for each exchange, and a variable of two exchanges stops the conversion.", "quantifier": "every data set, every sequence of exchanges, every factor and unit", "why_tests_cant": "all documents and numbers", "anchors": ["src/Lavoisier/conversions/ILCD1_to_ILCD1_conversion.py:get_var"]}
{"id": "C96", "title": "An ILCD data set that conforms to the format can be moved to another flow list", "statement": "The conversion of an exchange does not depend on optional fields: without a resulting amount the mean amount is used, names in several languages and unit groups of one unit are read. False of the code: each of these stops the conversion of the whole data set.", "quantifier": "every exchange, every archive, every position in the data set", "why_tests_cant": "all documents; errors at any place", "anchors": ["src/Lavoisier/conversions/ILCD1_to_ILCD1_conversion.py:__init__", "src/Lavoisier/conversions/ILCD1_to_ILCD1_conversion.py:get_unit"]}
{"id": "C97", "title": "The sections of an ILCD data set moved to another flow list keep their content", "statement": "When a section of the data set is taken over, the value given to the structure differs from the one read only by the number 1 on each text that has a language, at every depth; a field of several languages then shows, for each language of the file and no other, all the texts of the file in that language, in the order of the file, joined by the separator of the field.", "quantifier": "every value, every depth, every document, every list of texts", "why_tests_cant": "nested documents of any depth and lists of any length", "anchors": ["src/Lavoisier/conversions/ILCD1_to_ILCD1_conversion.py:place_index", "src/Lavoisier/data_structures/validators/general_validators.py:MultiLangString"]}
{"id": "C98", "title": "Every section of a conforming ILCD data set can be taken over", "statement": "A section with several codes of one kind (several approaches of the method, several reference flows) and texts without a language, both allowed by the format, are taken over. False of the code: a section stops the conversion exactly if a text without attributes in it has a sibling of the same name, outside of texts with a language, and a text without a language is refused by the field.", "quantifier": "every well-formed document", "why_tests_cant": "nested documents of any depth", "anchors": ["src/Lavoisier/conversions/ILCD1_to_ILCD1_conversion.py:place_index", "src/Lavoisier/data_structures/validators/general_validators.py:MultiLangString", "src/Lavoisier/formats/utils.py:XMLStreamIterable"]}
{"id": "C99", "title": "The variables of a comment are filled in", "statement": "After the conversion to ILCD, the texts of a comment say, in the same order and with the same index and language, what the comment says when each place {{name}} is filled with the value of the variable of that name; nothing else is changed. False of the code for values that contain places themselves (the result depends on the order of the variables), and a variable without a value or a blank text stops the conversion.", "quantifier": "every comment, every number of texts, variables, places and images, in every order", "why_tests_cant": "all texts of any length; replacements one after the other can interfere", "anchors": ["src/Lavoisier/conversions/ECS2_to_ILCD1_conversion.py:ECS2TTextAndImage.ILCDProcess"]}
{"id": "C100", "title": "Each image of a data set has a source of its own", "statement": "Every image and icon of an EcoSpold2 data set becomes a reference to a source whose file has its address; the same address always leads to the same source, and different addresses to different ones. False of the code: addresses that share a part in the shape of a UUID share the source, and only the first address is written; an empty address, and one with such a part that is no UUID in small letters, stop the conversion; outside of ASCII two addresses can be drawn the same identifier.", "quantifier": "every sequence of images, every address", "why_tests_cant": "all texts; collisions are too rare to be met by tests", "anchors": ["src/Lavoisier/formats/helpers.py:get_text_uuid", "src/Lavoisier/conversions/ECS2_to_ILCD1_conversion.py:ECS2TTextAndImage.ILCDProcess"]}
{"id": "C101", "title": "Texts on method and data sources arrive under their headings", "statement": "The thirteen texts of an ILCD data set on method, principles, deviations, sampling and use arrive in the sampling procedure or the extrapolations of the EcoSpold2 data set: for each language exactly the texts of that language, the sampling procedure first and each other text as a paragraph under the heading of its element, in the order of the document; deviations that say 'none' are left out. False of the code for deviations without any attribute and for texts without a language in a data set without a default: they stop the conversion.", "quantifier": "every sequence of elements, every language and text, whatever other elements stand between", "why_tests_cant": "all documents; the order depends on a running number shared by all texts", "anchors": ["src/Lavoisier/conversions/ILCD1_to_ECS2_conversion.py:mapping", "src/Lavoisier/formats/helpers.py:text_add_index"]}
{"id": "C102", "title": "Sampling procedure and extrapolations survive a conversion to ILCD and back", "statement": "A data set converted from EcoSpold2 to ILCD and back, any number of times, has the sampling procedure and the extrapolations it had. False of the code: each time an empty paragraph on modelling constants is added to the English sampling procedure, and one heading (two in English) is put in front of the extrapolations; the sampling procedure in other languages is kept.", "quantifier": "every data set, every number of conversions", "why_tests_cant": "the number of conversions is unbounded", "anchors": ["src/Lavoisier/conversions/ILCD1_to_ECS2_conversion.py:mapping", "src/Lavoisier/conversions/ECS2_to_ILCD1_conversion.py:mapping", "src/Lavoisier/conversions/ECS2_to_ILCD1_conversion.py:end_conversion"]}
{"id": "C103", "title": "Cutting a long text into sentences loses nothing", "statement": "A text that is longer than its field is first cut into sentences; put together again, these are the text, apart from white space. False of the code: the full stop after Inc., Ltd., Jr., Sr. or Co. is lost when the next word is one of sixteen, a quotation mark after the end of a sentence changes places with it, and the marks <prd> and <stop> in the text are replaced. All other characters are kept, in their order, in every text.", "quantifier": "every text", "why_tests_cant": "a chain of nineteen regular expressions over all texts; a test sees single texts", "anchors": ["src/Lavoisier/data_structures/utils.py:split_into_sentences", "src/Lavoisier/data_structures/utils.py:text_to_list"]}
{"id": "C104", "title": "Numbers in a long text stay whole", "statement": "A number with decimals in a text that is longer than its field can be read in one of the pieces that are written. False of the code: the point of every such number ends a sentence, so that no piece ever shows a number with decimals (0.5 becomes 0. 5, or is divided between two entries).", "quantifier": "every text and every limit", "why_tests_cant": "all texts; the failure concerns each number of each text", "anchors": ["src/Lavoisier/data_structures/utils.py:split_into_sentences", "src/Lavoisier/data_structures/utils.py:text_to_list"]}
{"id": "C105", "title": "Plain sentences are found as they are", "statement": "A text made of sentences that end with a full stop, question mark, exclamation mark or semicolon and contain none of the characters and abbreviations that mean something to the code is cut into exactly these sentences.", "quantifier": "every number of sentences of every length", "why_tests_cant": "all lists of sentences; each of nineteen replacements must not apply anywhere", "anchors": ["src/Lavoisier/data_structures/utils.py:split_into_sentences"]}
{"id": "C106", "title": "A reference to a flow leads to a flow data set with the properties of the exchange", "statement": "After the conversion of an EcoSpold2 data set, the reference of each intermediate exchange stands for a file in the folder of flows, of the version named in the reference and with exactly the properties of the exchange; two exchanges have the same reference exactly if flow and properties are the same, nothing else is written, and the file is found when the result is read again. References of elementary exchanges stand for the default file of the target, with its version. False of the code if an elementary exchange has the identifier of an intermediate one; names, classification and type are those of the first exchange with these properties; from the thousandth set of properties on the version is not one of the format.", "quantifier": "every data set that is converted, every number of exchanges, flows and sets of properties", "why_tests_cant": "files, references and a shared table depend on the whole history of the data set", "anchors": ["src/Lavoisier/conversions/ECS2_to_ILCD1_conversion.py:ECS2ToILCD1IntermediateFlowConversion.get_flow_dict", "src/Lavoisier/conversions/ECS2_to_ILCD1_conversion.py:ECS2ToILCD1ReferenceConversion"]}
{"id": "C107", "title": "Different properties of a flow in several data sets are kept apart", "statement": "When several EcoSpold2 data sets are converted into one output, different sets of properties of a flow become different versions of it (as the warning of the converter says), so that every exchange finds its own properties. False of the code: the versions are numbered anew in each data set, and an exchange finds the properties of the last data set with so many versions; it holds with one output for each data set.", "quantifier": "every sequence of data sets", "why_tests_cant": "the failure needs several data sets with the same flow; all sequences", "anchors": ["src/Lavoisier/conversions/ECS2_to_ILCD1_conversion.py:reset_conversion", "src/Lavoisier/conversions/ECS2_to_ILCD1_conversion.py:ECS2ToILCD1IntermediateFlowConversion.get_flow_dict", "src/Lavoisier/converter.py:convert"]}
{"id": "C108", "title": "The classes of the source are written as the mapping gives them", "statement": "A classification of an EcoSpold2 data set or exchange whose class is in the mapping is written as exactly the classes named there, numbered from 0, each with its name and with the part of the identifier that belongs to its level; a class the mapping does not know is written with its own text. The text of a known class has no effect.", "quantifier": "every mapping with at most ten levels, every class and every number of levels", "why_tests_cant": "every text of class and identifier, any number of levels and numbers", "anchors": ["src/Lavoisier/conversions/ECS2_to_ILCD1_conversion.py:ECS2ToILCD1ClassificationConversion.get_classification"]}
{"id": "C109", "title": "The classes written are those of the classification file in the output", "statement": "Each ILCD classification names a file with the categories of each kind of data set, which is put into the output: identifiers and names of the classes are those of a category in the section for the kind of data set, and the reference leads to the file. False of the code: a flow never has a category of the flow section (the identifiers are those for processes), a process has none where the mapping has no identifier or another spelling or does not know the class, and sources and contacts refer to a file that is not there.", "quantifier": "every data set with the mapping and the classification file of the package", "why_tests_cant": "three data files and the code must agree for every class", "anchors": ["src/Lavoisier/conversions/ECS2_to_ILCD1_conversion.py:ECS2ToILCD1ClassificationConversion.get_classification", "src/Lavoisier/conversions/ECS2_to_ILCD1_conversion.py:SourceDataSet.make_structure", "src/Lavoisier/Mappings/ecs2_to_ilcd1_classes.json", "src/Lavoisier/Lavoisier_Default_Files/Lavoisier_Classifications/ILCDClassification.xml", "src/Lavoisier/formats/ILCD1_format.py"]}
{"id": "C110", "title": "The main classification comes first", "statement": "The classifications of the systems ISIC rev.4 and CPC are all written and no others, the CPC class first for a flow and the ISIC class first for a process (as organize says). False of the code: organize compares the name, which is always ILCD, with the name of the system, and the order remains that of the source. A conversion stops exactly if such a classification has no text.", "quantifier": "every list of classifications of a flow or process", "why_tests_cant": "all lists and orders; the function looks right and never does anything", "anchors": ["src/Lavoisier/conversions/ECS2_to_ILCD1_conversion.py:ECS2ToILCD1ClassificationConversion.organize", "src/Lavoisier/conversions/ECS2_to_ILCD1_conversion.py:ECS2ToILCD1IntermediateFlowConversion.get_classification", "src/Lavoisier/conversions/ECS2_to_ILCD1_conversion.py:reset_conversion"]}
{"id": "C111", "title": "The amount of an exchange is in the unit of its flow property", "statement": "The number written for an exchange or a flow property of a flow, read in the reference unit that the flow property and unit group files of the output give, is the amount of the source. False of the code for time: amounts are converted to days, and the unit group put into the output has the year as its reference unit, so that a reader takes a day for a year. For currency it holds only for a reader who takes the EUR of the file for the EUR2000 of the code.", "quantifier": "every amount and unit, every sizes of the units that agree with the names in the table", "why_tests_cant": "a table in the code and files of the package must agree for every unit and amount", "anchors": ["src/Lavoisier/conversions/ECS2_to_ILCD1_conversion.py:ECS2ToILCD1Amount.to_ilcd_unit", "src/Lavoisier/conversions/ECS2_to_ILCD1_conversion.py:ECS2ToILCD1FlowConversion.Property.get_unit_property", "src/Lavoisier/conversions/units.py:pint_to_ilcd_def", "src/Lavoisier/Lavoisier_Default_Files/ILCD_EF30_UnitGroups"]}
{"id": "C112", "title": "A reference to a flow property leads to its file and unit group", "statement": "For every sequence of exchanges and properties of a conversion, each reference to a flow property leads to a file in the output that has the version named, and the file of the unit group it refers to is in the output as well.", "quantifier": "every sequence of requests, every dimension and property, every content of the folders before", "why_tests_cant": "all sequences; files are copied only once and what has been copied is kept in a list", "anchors": ["src/Lavoisier/conversions/ECS2_to_ILCD1_conversion.py:ECS2ToILCD1ReferenceConversion.make_dataset", "src/Lavoisier/conversions/utils.py:copy_file", "src/Lavoisier/conversions/units.py:pint_to_ilcd_fp", "src/Lavoisier/Lavoisier_Default_Files/ILCD_EF30_FlowProperties"]}
{"id": "C113", "title": "An exchange in a unit of ILCD can be converted", "statement": "Each dimension for which the code has a unit of ILCD has a flow property, and an exchange with it does not stop the conversion; a property never does. False of the code: items times time, amount of substance and volume times length have a unit but no flow property and end in an error.", "quantifier": "every dimension, every sequence of exchanges and properties", "why_tests_cant": "two tables of the code must cover the same dimensions; the exact condition is proved for every sequence", "anchors": ["src/Lavoisier/conversions/ECS2_to_ILCD1_conversion.py:ECS2ToILCD1FlowConversion.Property.get_unit_property", "src/Lavoisier/conversions/units.py"]}
{"id": "C114", "title": "A unit is recognised whatever the order of its factors", "statement": "The unit group and flow property of a unit do not depend on the order in which pint names the dimensions of its factors (as correct_dimensionality is to ensure). False of the code for mass times time, items times length and items times time: in the other order the amount is converted to base units and the exchange stops the conversion.", "quantifier": "every order of the factors of every dimension of the tables", "why_tests_cant": "the order depends on the version of pint and on how the unit is written", "anchors": ["src/Lavoisier/conversions/utils.py:correct_dimensionality", "src/Lavoisier/conversions/ECS2_to_ILCD1_conversion.py:ECS2ToILCD1Amount.to_ilcd_unit"]}
{"id": "C115", "title": "The flow property of a unit is named as in its file", "statement": "The short description in the reference to the flow property of an exchange is the name of the flow property data set it leads to. False of the code for two units: person kilometres refer to vehicle transport under the name of person transport, and currencies to the marginal increase of costs under the name of currency.", "quantifier": "every dimension of the table", "why_tests_cant": "a table in the code and files of the package must agree", "anchors": ["src/Lavoisier/conversions/ECS2_to_ILCD1_conversion.py:ECS2ToILCD1FlowConversion.Property.get_unit_property", "src/Lavoisier/conversions/units.py:pint_to_ilcd_fp"]}
{"id": "C116", "title": "The activity index and the master data agree with the data set", "statement": "In a conversion from ILCD to EcoSpold2 the identifier, the identifier of the name, the special activity type, the period, the geography and the system model of the entry in the activity index are those of the data set; the name of the master data has the same identifier; and there is an entry for the geography in the master data only with the identifier that the data set refers to.", "quantifier": "every sequence of elements of an ILCD file, every set of options", "why_tests_cant": "the values are set in separate places by separate statements, in the order of the file, some of them more than once", "anchors": ["src/Lavoisier/conversions/ILCD1_to_ECS2_conversion.py:ILCD1ToECS2FieldMapping", "src/Lavoisier/conversions/ILCD1_to_ECS2_conversion.py:ILCD1ToECS2FieldMapping.general_comment"]}
{"id": "C117", "title": "The identifier of an activity name belongs to the name", "statement": "In a conversion from ILCD to EcoSpold2 activityNameId is the identifier of the name that is written: two data sets have the same one if and only if they have the same activityName. Partly false of the code: of several base names the first is written and the identifier is computed of the last; a line of the comment overrides it. Proved: which name and which identifier are written, for all files, and the property if all base names have one text and no comment names an identifier.", "quantifier": "every sequence of elements of an ILCD file", "why_tests_cant": "depends on the order and number of elements in several places", "anchors": ["src/Lavoisier/conversions/ILCD1_to_ECS2_conversion.py:ILCD1ToECS2FieldMapping", "src/Lavoisier/data_structures/validators/ECS2_validators.py:Name"]}
{"id": "C118", "title": "The name of an activity is whole, and the same in the master data", "statement": "All parts of the name of an ILCD process reach activityName, and the master data have this name for its identifier. False of the code: only the first part that shows is written in the data set, while the master data have all the parts, joined by semicolons for each language; after conversion to ILCD and back the name in the master data has the short name of the location behind it.", "quantifier": "every sequence of elements of an ILCD file; every name and short name", "why_tests_cant": "two types of field treat the same texts in different ways", "anchors": ["src/Lavoisier/conversions/ILCD1_to_ECS2_conversion.py:ILCD1ToECS2FieldMapping", "src/Lavoisier/conversions/ECS2_to_ILCD1_conversion.py:ECS2ToILCD1FieldMapping"]}
{"id": "C119", "title": "A location keeps its identity", "statement": "A location has one identifier, that of the list if it is listed, otherwise one of its own with an entry in the master data; different locations of the list have different identifiers; and conversion to ILCD and back keeps the location and its identifier. Partly false of the code: an unlisted location gets another identifier than it had, and a geography with short names in two languages stops the conversion.", "quantifier": "every location, every sequence of elements, every pair of name and short name", "why_tests_cant": "a table of 479 locations and a computed identifier; states about all texts that are not in the table", "anchors": ["src/Lavoisier/conversions/ILCD1_to_ECS2_conversion.py:ILCD1ToECS2FieldMapping.new_geography_master", "src/Lavoisier/conversions/ECS2_to_ILCD1_conversion.py:ECS2ToILCD1FieldMapping", "src/Lavoisier/Mappings/ilcd1_to_ecs2_geographies.json"]}
{"id": "C120", "title": "Synonyms survive conversion to ILCD and back", "statement": "The synonyms of an activity after conversion to ILCD and back are those of the EcoSpold2 file. Partly false of the code: they all come back as English, those with a semicolon and a space in them are divided and those of more than eighty characters are dropped; English ones without either are kept exactly.", "quantifier": "every list of synonyms in any languages", "why_tests_cant": "joining and splitting are inverse only under conditions on all texts", "anchors": ["src/Lavoisier/conversions/ILCD1_to_ECS2_conversion.py:ILCD1ToECS2FieldMapping", "src/Lavoisier/conversions/ECS2_to_ILCD1_conversion.py:ECS2ToILCD1FieldMapping"]}
{"id": "C121", "title": "A name without a language is an English name", "statement": "A name, a synonym or a comment without the attribute xml:lang, which the ILCD format allows and which means English, is converted as an English one. Partly false of the code: the other parts of the name and the comment are, but a base name without it stops the conversion, whatever else the file has.", "quantifier": "every element, every sequence of elements around it", "why_tests_cant": "an optional attribute changes the type of the value in the reader", "anchors": ["src/Lavoisier/conversions/ILCD1_to_ECS2_conversion.py:ILCD1ToECS2FieldMapping", "src/Lavoisier/formats/helpers.py:text_add_index"]}
{"id": "C122", "title": "An ILCD archive written is complete in itself", "statement": "Every reference in a process data set or in any other data set of an archive made from EcoSpold2 data sets leads to a data set of the same archive. True of the processes and of the sources, contacts and product flows made; of the files copied from the package only unless the hydrogen content is asked for (its file names a preceding version that does not exist), or an elementary flow states a flow property that no exchange of the archive asks for, or names an owner that is no contact of the data sets.", "quantifier": "every list of data sets converted into one archive, every sequence of sources, contacts, products and emissions in each, every elementary flow mapping", "why_tests_cant": "a closure property of the whole archive, across all files made and copied in the course of a conversion", "anchors": ["src/Lavoisier/conversions/ECS2_to_ILCD1_conversion.py:ECS2ToILCD1ReferenceConversion.make_dataset", "src/Lavoisier/conversions/ECS2_to_ILCD1_conversion.py:ECS2ToILCD1ElementaryFlowConversion.get_flow_dict", "src/Lavoisier/formats/ILCD1_format.py:ILCD1Output"]}
{"id": "C123", "title": "Every process of an ILCD archive is converted", "statement": "Each process data set of an archive is converted exactly once, and nothing else is. True if the archive has one folder `processes` and its root folder does not contain the text `processes/`; false of the code for archives with several such folders (only the one of the first entry is read) and for root folders whose name ends with `processes` (nothing is converted and no error is raised).", "quantifier": "every list of entries of an archive, every name of root folders", "why_tests_cant": "depends on the names and the order of the entries of an archive, any number of them", "anchors": ["src/Lavoisier/formats/ILCD1_format.py:ILCD1Input._extract", "src/Lavoisier/formats/ILCD1_format.py:ILCD1Input._single_file_input"]}
{"id": "C124", "title": "An archive that cannot be converted says so and does not stop the others", "statement": "If an archive cannot be opened or has no processes, the error raised says so, and the other archives of the directory are converted. False of the code: the archives behind it are not converted, the first archive of a directory or a single one is reported with an unrelated AttributeError, and a file .xml is accepted as input although its conversion always fails that way.", "quantifier": "every list of archives, every position of the one that fails", "why_tests_cant": "the effect of an archive on the ones behind it in lists of any length", "anchors": ["src/Lavoisier/formats/ILCD1_format.py:ILCD1Input._multiple_file_input", "src/Lavoisier/formats/ILCD1_format.py:ILCD1Input.handle_error", "src/Lavoisier/formats/abstractions.py:PathVerifier._verify_path"]}
{"id": "C125", "title": "Every file of a directory that would be accepted alone is converted", "statement": "Given a directory, the converter takes exactly those files that it accepts when they are given alone, each once, and marks the last and no other as the last one. For ILCD input true of the archives; .xml files are accepted alone but passed over in a directory.", "quantifier": "every directory content", "why_tests_cant": "quantifies over all directory listings", "anchors": ["src/Lavoisier/formats/abstractions.py:InputTemplate._get_files_of_extension", "src/Lavoisier/formats/abstractions.py:InputTemplate._yield_files", "src/Lavoisier/formats/ECS2_format.py:ECS2Input"]}
{"id": "C126", "title": "Data without a place in ILCD never stop the conversion", "statement": "The context identifiers, flags and other attributes of EcoSpold2 that ILCD has no field for are put on record, each under its own name, and do not stop the conversion of a file that the format allows. False of the code in four cases: the context of a classification of the activity (the record has no such field), the context of the allocation property of an exchange (the field is read instead of assigned), a required context without its optional file location (None is added to a text) and the context of a company without its identifier; true in all others.", "quantifier": "every combination of attributes of parameters, properties, exchanges, production volumes, classifications, persons and contexts", "why_tests_cant": "the attributes are optional and independent: the cases that fail are combinations no sample file has", "anchors": ["src/Lavoisier/conversions/ECS2_to_ILCD1_conversion.py:ECS2ToILCD1FlowConversion.get_not_converted", "src/Lavoisier/conversions/ECS2_to_ILCD1_conversion.py:ECS2ToILCD1ClassificationConversion.get_not_converted", "src/Lavoisier/data_structures/ILCD1_structure.py:ECS2ToILCD1DataNotConverted"]}
{"id": "C127", "title": "A text without a language is converted like an English one", "statement": "The attribute xml:lang may be left out in ILCD and then means English: every field with such a text is converted, with the text and the language. False of the code for eight fields (among them the name of the process, its synonyms and the access restrictions), whose entries ask for the key of a dictionary although the reader delivers a plain text: the conversion stops with a TypeError. The registration number, which never has a language, always stops it. All other fields are read, unless they are empty as well.", "quantifier": "every text element of an ILCD process, with and without language and content", "why_tests_cant": "the form of the value depends on the attributes of each element of the file; a sample file with languages everywhere meets only one of the forms", "anchors": ["src/Lavoisier/conversions/ILCD1_to_ECS2_conversion.py:ILCD1ToECS2FieldMapping.mapping", "src/Lavoisier/formats/utils.py:XMLStreamIterable.elem2dict", "src/Lavoisier/formats/helpers.py:ILCD1Helper.text_add_index"]}
{"id": "C128", "title": "Texts in several languages are all read", "statement": "Comments and descriptions may be given in any number of languages: each with content is read, in order and with its language, and where only one is needed it is the first with content. True of comments and of the names of flows and reviewers; false of the code for the descriptions of flow properties and sources: a second language, or one text without a language, stops the conversion with a TypeError.", "quantifier": "every list of texts of any length, each with or without language and content", "why_tests_cant": "the number of languages is not bounded, and the value changes its type with it", "anchors": ["src/Lavoisier/conversions/utils.py:ensure_list", "src/Lavoisier/conversions/ILCD1_to_ECS2_conversion.py:ILCD1ToECS2SourceReferenceConversion.__init__", "src/Lavoisier/conversions/ILCD1_to_ECS2_conversion.py:ILCD1ToECS2FlowConversion.Property.normal_init"]}
{"id": "C129", "title": "The unit of an EcoSpold2 value is read as the unit it names", "statement": "A unit that is a product or quotient of powers of named units is given to the unit library as the same product or quotient, whatever names (with spaces or hyphens) and exponents from 2 to 4 it has, and it is accepted if the library knows it. False of the code for several powers behind a division (kg/m2.a is read as kg/m2 times a; only hp.h gets brackets), for negative exponents, which become a part of the name, and for the units of C130.", "quantifier": "every list of names and exponents, joined by points and slashes", "why_tests_cant": "the texts of units are not bounded in length, and the replacements are made one after the other on the whole text, so that they may meet", "anchors": ["src/Lavoisier/conversions/ECS2_to_ILCD1_conversion.py:ECS2ToILCD1Amount.unit_name_correction", "src/Lavoisier/conversions/ECS2_to_ILCD1_conversion.py:Amount.__init__", "src/Lavoisier/conversions/units.py:units_def"]}
{"id": "C130", "title": "A substance in the name of a unit does not change the rest of the unit", "statement": "In units like kg N2O/km2 the digits of the formula are no exponents and those of the other units are. False of the code: with one of the five formulas it knows, no digit of the text is made an exponent, so that km2 is read with the prefix not raised to the power (a factor of 1000); any other formula with a digit from 2 to 4 is made a power, which no unit has.", "quantifier": "every name with one of the formulas, every unit behind it, every prefix; every other formula", "why_tests_cant": "concerns combinations of substances and units; the wrong value is a number without any error", "anchors": ["src/Lavoisier/conversions/ECS2_to_ILCD1_conversion.py:ECS2ToILCD1Amount.unit_name_correction"]}
{"id": "C131", "title": "A unit that was corrected once is not changed by a second correction", "statement": "The units of UnitConversion in a formula are corrected where the formula is read and once more when the amount is made; they are the same as those of an exchange with the same text. True of all texts without brackets; with brackets there are texts that change again.", "quantifier": "every text without brackets", "why_tests_cant": "the second run of the replacements sees what the first has written; no finite set of texts shows that they never meet", "anchors": ["src/Lavoisier/conversions/ECS2_to_ILCD1_conversion.py:ECS2ToILCD1VariableConversion.Formula.correct_unit_conversion", "src/Lavoisier/conversions/ECS2_to_ILCD1_conversion.py:ECS2ToILCD1Amount.unit_name_correction"]}
{"id": "C132", "title": "Each row of the table of a user decides about its flow", "statement": "A table of elementary flows that names each flow once is used row by row: the flow gets the target, the unit and the factor of its row (1 for an empty factor or n/a), and a flow without a row is reported. Of several rows for a flow, for a flow that is split among targets, only the last is used, without a message. A table without the column SourceFlowUUID under this very name is a KeyError.", "quantifier": "every header without repeated names, every list of records of any length, every flow", "why_tests_cant": "tables have thousands of rows written by others; the effect of a repeated row is a plain number", "anchors": ["src/Lavoisier/conversions/utils.py:FieldMapping._dict_from_file", "src/Lavoisier/conversions/ECS2_to_ILCD1_conversion.py:ECS2ToILCD1ElementaryFlowConversion.get_elementary_info", "src/Lavoisier/conversions/ILCD1_to_ECS2_conversion.py:ILCD1ToECS2ReferenceConversion"]}
{"id": "C133", "title": "A mapping table is found where the user says it is", "statement": "A path given to elem_flow_mapping leads to the file that the user means, relative paths from the working directory. True of absolute paths; false of the code for all relative ones: they are looked for in the folder of the program (json) or in its folder conversions (csv), the path is accepted and the conversion stops. A name in capital letters (.CSV) is not accepted.", "quantifier": "every path, working directory and file system", "why_tests_cant": "depends on where the package is installed and from where it is called", "anchors": ["src/Lavoisier/conversions/utils.py:FieldMapping._dict_from_file", "src/Lavoisier/converter.py:Converter.elem_flow_mapping"]}
{"id": "C134", "title": "A flow marked as without a match is reported", "statement": "A row of the table that says that there is no match makes the conversion report the flow, in both directions. False of the code towards ILCD for the marks NO_FLOW_MATCH_MANUAL and NO_MAPPING and for every mark with a space around it, which the other direction knows: the flow is converted to the target of the row. A row that ends before its MapType counts as a match towards ILCD and stops the conversion from ILCD.", "quantifier": "every table and record", "why_tests_cant": "the marks are texts in a file of the user", "anchors": ["src/Lavoisier/conversions/ECS2_to_ILCD1_conversion.py:ECS2ToILCD1ElementaryFlowConversion.get_elementary_info", "src/Lavoisier/conversions/ILCD1_to_ECS2_conversion.py:ILCD1ToECS2ReferenceConversion"]}
{"id": "C135", "title": "The parts of a converter can be exchanged", "statement": "What a property of a converter gives back can be set again, and what a setter accepts works in the next conversion. False of the code: the setters of iterator, output_manager and output_structure ask for an instance, but the parts are called like classes or looked up by a version, so that no class is accepted, not even the present one, and an accepted instance stops the conversion unless it can be called (or subscripted); mapping accepts no dictionary that sets anything. The input manager and the version can be exchanged, the version only for the one of the format.", "quantifier": "every converter, every sequence of assignments of any length, every object", "why_tests_cant": "a statement on all objects a user may pass and all sequences of assignments", "anchors": ["src/Lavoisier/converter.py:Converter.iterator", "src/Lavoisier/converter.py:Converter.mapping", "src/Lavoisier/converter.py:Converter.output_structure", "src/Lavoisier/data_structures/factories.py:StructureFactory.get_structure"]}
{"id": "C136", "title": "A converter can be printed and shows its options", "statement": "Printing a converter never fails and shows every option with its format, a name from which the attribute can be told, and its value. True until a mapping configuration has been assigned: the only one accepted, the empty dictionary, makes every later print fail with a TypeError.", "quantifier": "every sequence of assignments, every option name of small letters and underscores", "why_tests_cant": "the failure comes from an assignment made any number of steps before", "anchors": ["src/Lavoisier/converter.py:Converter.__str__", "src/Lavoisier/converter.py:Converter.mapping"]}
{"id": "C137", "title": "The list of flows that were not converted is complete and exact", "statement": "The list written at the end of a conversion names exactly the elementary flows of the data set that were not converted, whatever else is in the log. True from EcoSpold2 to ILCD for names on one line and identifiers in small letters. False of the code otherwise: a lost flow with a tabulator in its name or capital letters in its identifier is left out; from ILCD to EcoSpold2 a lost flow with a normal or lognormal distribution without a basic variance is left out, because another entry stands between; from ILCD to ILCD nothing is ever listed.", "quantifier": "every log, any number of flows, every name and identifier", "why_tests_cant": "a search with a regular expression in a text of any length that holds names from the data", "anchors": ["src/Lavoisier/formats/utils.py:DefaultLog.end_log", "src/Lavoisier/conversions/ECS2_to_ILCD1_conversion.py:ECS2ToILCD1ElementaryFlowConversion.get_elementary_info", "src/Lavoisier/conversions/ILCD1_to_ECS2_conversion.py:ILCD1ToECS2UncertaintyConversion._get_data", "src/Lavoisier/conversions/ILCD1_to_ILCD1_conversion.py"]}
{"id": "C138", "title": "The list of a conversion names no flows of another", "statement": "The list of flows that were not converted belongs to the conversion it is written for. False of the code for EcoSpold2: the log is named after the data set and continued, so that the list of a later conversion names the flows of all earlier ones with this name again.", "quantifier": "every sequence of conversions into a directory", "why_tests_cant": "it shows only in the second of two conversions, with any entries in the first", "anchors": ["src/Lavoisier/formats/utils.py:DefaultLog.start_log", "src/Lavoisier/formats/ECS2_format.py"]}
{"id": "C139", "title": "Pedigree scores and basic variance come back from ILCD", "statement": "ILCD has no place for the pedigree matrix and the basic variance, so they are written into the comment of the exchange. Converted back, each score has the name it had and the variance the value it had. True of the code for attributes in the usual order, a variance without sign and exponent and a comment of at most 500 characters. False otherwise: scores are named by their place in the file, so that attributes in another order exchange their scores; a variance of 1e-05 comes back as 1; one with a sign stops the conversion; of a longer comment nothing is read.", "quantifier": "every uncertainty, every number of comments up to 97, every comment of the exchange without the key words, every text length", "why_tests_cant": "the values pass through one text together with free texts of any length", "anchors": ["src/Lavoisier/conversions/ECS2_to_ILCD1_conversion.py:ECS2ToILCD1UncertaintyConversion.__init__", "src/Lavoisier/conversions/ILCD1_to_ECS2_conversion.py:ILCD1ToECS2UncertaintyConversion.normal_init", "src/Lavoisier/conversions/ILCD1_to_ECS2_conversion.py:ILCD1ToECS2UncertaintyConversion.calculate"]}
{"id": "C140", "title": "A round trip adds no uncertainty comment of its own", "statement": "After a conversion to ILCD and back the comments of an uncertainty are those it had, in every language. False of the code: with a basic variance there is always a comment, of a semicolon at least; the English comments of the exchange follow in it; comments in other languages are not read.", "quantifier": "every uncertainty and every exchange, every number of comments and languages", "why_tests_cant": "the comment is what remains of a text after other parts were cut out of it", "anchors": ["src/Lavoisier/conversions/ECS2_to_ILCD1_conversion.py:ECS2ToILCD1UncertaintyConversion.__init__", "src/Lavoisier/conversions/ILCD1_to_ECS2_conversion.py:ILCD1ToECS2UncertaintyConversion.normal_init"]}
{"id": "C141", "title": "Distributions ILCD does not know come back", "statement": "A beta, gamma, binomial or undefined distribution is written as a text and comes back with its kind and its parameters. True of the code if the comment of the exchange has at most 500 characters; a longer comment is split into pieces without line ends and the distribution is lost without a message.", "quantifier": "every distribution of these kinds and all values, every comment without the key words, every text length", "why_tests_cant": "the parameters pass through one text together with free texts of any length", "anchors": ["src/Lavoisier/conversions/ECS2_to_ILCD1_conversion.py:ECS2ToILCD1UncertaintyConversion._get_not_converted_text", "src/Lavoisier/conversions/ILCD1_to_ECS2_conversion.py:ILCD1ToECS2UncertaintyConversion.init_from_comment", "src/Lavoisier/conversions/ILCD1_to_ECS2_conversion.py:ILCD1ToECS2UncertaintyConversion.calculate"]}
{"id": "C142", "title": "Every parameter is written", "statement": "A parameter of an EcoSpold2 data set is a variable of the ILCD data set, under its name if it has one. True of parameters with a name or a formula. False of the code for the others (their names are optional in EcoSpold2): the result is the same as without them, their amounts, units and comments are lost.", "quantifier": "every list of quantities of any length, every place of the parameter in it", "why_tests_cant": "what is written is the result of a fold over all quantities that also defines names and conversions", "anchors": ["src/Lavoisier/conversions/ECS2_to_ILCD1_conversion.py:ECS2ToILCD1ParameterConversion.__init__", "src/Lavoisier/conversions/ECS2_to_ILCD1_conversion.py:ECS2ToILCD1Amount.construct_variable"]}
{"id": "C143", "title": "The unit of a parameter comes back", "statement": "ILCD has no unit for variables, it is written into the comment in brackets. Converted back, the parameter has the unit it had. True of units whose text has no blank, slash, star or point if no comment in a language after English has brackets. False of the code otherwise: a composed unit comes back as a text that is no unit (kg_per_m3), a unit without dimension is lost, a text in brackets in a French comment becomes the unit.", "quantifier": "every unit text, every parameter, any number of comments and languages", "why_tests_cant": "the unit passes through a text with free texts of any length", "anchors": ["src/Lavoisier/conversions/ECS2_to_ILCD1_conversion.py:ECS2ToILCD1Amount.construct_variable", "src/Lavoisier/conversions/ILCD1_to_ECS2_conversion.py:ILCD1ToECS2VariableConversion.__init__"]}
{"id": "C144", "title": "The comments of a parameter come back", "statement": "The comments of a parameter are those it had after a conversion to ILCD and back, in every language. True, joined by lines and without the blanks around the English ones, for comments without brackets that are within the limit. False of the code for comments with brackets: no comment that is read has a pair of brackets on a line, all text between the first and the last is removed.", "quantifier": "every parameter, any number of comments and languages, every text", "why_tests_cant": "the comment is what remains of a text after a pattern was cut out of it", "anchors": ["src/Lavoisier/conversions/ILCD1_to_ECS2_conversion.py:ILCD1ToECS2VariableConversion.__init__", "src/Lavoisier/conversions/ECS2_to_ILCD1_conversion.py:ECS2ToILCD1ParameterConversion.__init__"]}
{"id": "C145", "title": "Different conversions of units have different names", "statement": "A conversion of units is a variable with a name made of the texts of the units; two conversions of different units have different names, so that each formula uses its own factor. True of all units whose symbols have no digit, underscore, blank or operator. False of the code otherwise: EUR2005 and EUR ** 2005 have one name. Two conversions with one name and different factors leave one of them without its factor.", "quantifier": "all products and quotients of powers, of any length", "why_tests_cant": "injectivity of a chain of text replacements on an infinite set", "anchors": ["src/Lavoisier/conversions/ECS2_to_ILCD1_conversion.py:ECS2ToILCD1Amount.get_conversion_str", "src/Lavoisier/conversions/ECS2_to_ILCD1_conversion.py:ECS2ToILCD1Amount.__str_unit"]}
{"id": "C146", "title": "Variables written to ILCD can be converted back", "statement": "Each variable name that Lavoisier writes to ILCD is accepted on the way back. False of the code: ILCD allows fifty characters and EcoSpold2 forty; names of the former kind are not shortened, the conversion stops with a ValueError. The exact lengths are proved, also of the names made for conversions of units and for amounts in another unit.", "quantifier": "every name and unit text", "why_tests_cant": "the length of a name is the sum of free texts, cut in one direction only", "anchors": ["src/Lavoisier/conversions/ECS2_to_ILCD1_conversion.py:ECS2ToILCD1VariableConversion.converted_var", "src/Lavoisier/conversions/ILCD1_to_ECS2_conversion.py:ILCD1ToECS2VariableConversion.__init__", "src/Lavoisier/data_structures/validators/ECS2_validators.py:VariableName"]}
{"id": "C147", "title": "An uncertainty that the format allows does not stop the conversion", "statement": "Every uncertainty of an EcoSpold2 data set is converted, and what is written for it can be read back. False of the code: a pedigree matrix with a basic variance but without the variance with pedigree is a KeyError (the values are read for a comparison that only writes a warning), so is a missing parameter of a beta, gamma, binomial or undefined distribution; a pedigree matrix without five scores of one digit is written and stops the way back with an AttributeError. The exact conditions and errors are proved.", "quantifier": "every uncertainty, every list of attributes and scores", "why_tests_cant": "optional attributes in any combination and order, each with any text", "anchors": ["src/Lavoisier/conversions/ECS2_to_ILCD1_conversion.py:ECS2ToILCD1UncertaintyConversion.__init__", "src/Lavoisier/conversions/ILCD1_to_ECS2_conversion.py:ILCD1ToECS2UncertaintyConversion.normal_init"]}
{"id": "C148", "title": "Production volumes are stated for every product", "statement": "The production volume of every product of an EcoSpold2 data set is stated in the ILCD process with its name, number and unit, in the order of the products, and its comments are kept. Proved for all lists of products whose first name can be read, as one English text when the limits of lengths are ignored or kept; a volume that is no number, or a first name without a language beside others, stops the conversion.", "quantifier": "every list of products, every element", "why_tests_cant": "the field collects lines of any number of products by a running number kept in the class", "anchors": ["src/Lavoisier/conversions/ECS2_to_ILCD1_conversion.py:ECS2ToILCD1IntermediateFlowConversion.ProductionVolume.__init__", "src/Lavoisier/conversions/ECS2_to_ILCD1_conversion.py:ECS2ToILCD1IntermediateFlowConversion.__init__"]}
{"id": "C149", "title": "The uncertainty of a production volume is stated", "statement": "If the production volume of a product is uncertain, the statement of the volume says so. False of the code: the text asks for an attribute of the uncertainty that no uncertainty has, so that the statement is the same with and without it; an uncertainty that cannot be read still stops the conversion.", "quantifier": "every product, every distribution", "why_tests_cant": "the difference is the absence of a text in all cases", "anchors": ["src/Lavoisier/conversions/ECS2_to_ILCD1_conversion.py:ECS2ToILCD1IntermediateFlowConversion.ProductionVolume.__init__", "src/Lavoisier/conversions/ECS2_to_ILCD1_conversion.py:ECS2ToILCD1UncertaintyConversion._calculate"]}
{"id": "C150", "title": "Links to activities and CAS numbers of products are kept", "statement": "The activity a product is linked to is noted in the comment of the exchange, and the CAS number of a product in its flow data set. False of the code: both are attributes in EcoSpold2 and are asked for as child elements, so that neither is ever written, whatever the product.", "quantifier": "every product element without children of these names", "why_tests_cant": "the absence of an output for all inputs of a schema", "anchors": ["src/Lavoisier/conversions/ECS2_to_ILCD1_conversion.py:ECS2ToILCD1IntermediateFlowConversion.__init__", "src/Lavoisier/conversions/ECS2_to_ILCD1_conversion.py:ECS2ToILCD1IntermediateFlowConversion.get_flow_dict"]}
{"id": "C151", "title": "A product keeps its names and synonyms", "statement": "The flow data set made for a product has its names and synonyms in their languages. True of the text of the first name if it is English, and of the texts of the synonyms. False of the code otherwise: the first name is given as English whatever its language, other names and the languages of the synonyms are lost, and a product without synonyms gets an empty element of synonyms.", "quantifier": "every product, any number of names and synonyms in any language", "why_tests_cant": "the names are a list of any length in any order of languages", "anchors": ["src/Lavoisier/conversions/ECS2_to_ILCD1_conversion.py:ECS2ToILCD1IntermediateFlowConversion.get_flow_dict", "src/Lavoisier/conversions/ECS2_to_ILCD1_conversion.py:ECS2ToILCD1ReferenceConversion.IntermediateFlowDataSet.make_structure"]}
{"id": "C152", "title": "The names of the files do not stop a conversion", "statement": "Every data set that conforms to its format can be saved: the names made for its log, its file and its list of flows are names the file system accepts, and no data set is placed outside the directory asked for. No name made of a data set has a slash, and data sets in ASCII within the limits of EcoSpold2 are always saved. Otherwise false of the code: names count in bytes (up to 255), a slash counts five, the log takes the base name of an ILCD data set whatever its length, and the list of flows not converted has a longer name than the log, so that a conversion can fail after its data set has been saved; the suffix of an archive of several data sets is taken as it is.", "quantifier": "every data set, every suffix, every content of the output directory", "why_tests_cant": "all names of data sets in all scripts, and all directories", "anchors": ["src/Lavoisier/data_structures/ECS2_structure.py:ECS2Structure.get_filename", "src/Lavoisier/data_structures/ILCD1_structure.py:ILCD1Structure.get_filename", "src/Lavoisier/formats/ECS2_format.py:ECS2Output", "src/Lavoisier/formats/ILCD1_format.py:ILCD1Output.end_conversion", "src/Lavoisier/formats/utils.py:DefaultLog.end_log"]}
{"id": "C153", "title": "The start and the end of the included activities come back in their languages", "statement": "The texts on the start and the end of the included activities of an EcoSpold2 data set, converted to ILCD and back, are the same texts in the same languages. False of the code unless the data set is in English alone and each text is one line: the texts of all languages are joined and marked as English, a start of several lines or without an end stays in the comment, and of an end of several lines only the first is recognised.", "quantifier": "every number of languages, every text without the marks of the code", "why_tests_cant": "all texts, all numbers of languages", "anchors": ["src/Lavoisier/conversions/ILCD1_to_ECS2_conversion.py:ILCD1ToECS2BasicFieldMapping.tech_comment", "src/Lavoisier/formats/helpers.py:ILCD1Helper.text_dict_from_text"]}
{"id": "C154", "title": "The kind of calorific value an activity states is that of its energy flows", "statement": "An EcoSpold2 activity says with energyValues whether its calorific values are undefined, net or gross. The flow property in which a product or elementary flow in a unit of energy is written in ILCD is that kind (net if none is stated), for every activity and whatever was converted before it by the same converter.", "quantifier": "for all data sets converted one after another, all stated kinds and all dimensions of energy", "why_tests_cant": "The code remembers the kind under one attribute name and reads it under another. A test with the common value (net or undefined) passes; that the statement is never heeded is a fact about all inputs and all earlier conversions.", "anchors": ["src/Lavoisier/conversions/ECS2_to_ILCD1_conversion.py:ECS2ToILCD1FieldMapping", "src/Lavoisier/conversions/ECS2_to_ILCD1_conversion.py:ECS2ToILCD1FlowConversion"]}
{"id": "C155", "title": "The numbers of exchanges, production volumes, parameters and variables in the log are those of the data sets", "statement": "At the end of a conversion of EcoSpold2 to ILCD the log says 'converted/found' for each kind of element. For products, elementary exchanges, production volumes and parameters the found number is that of the data sets read and the converted number that of the ones written; for variables the converted number is that of the values with a variable or formula if they are converted at all and nought else; for any data sets in any number.", "quantifier": "for all lists of data sets and all options", "why_tests_cant": "The counters live in class attributes of many classes and go up and down during the conversion and again at its end. A test looks at one file with few exchanges; the numbers over all runs need an invariant of every step.", "anchors": ["src/Lavoisier/conversions/ECS2_to_ILCD1_conversion.py:ECS2ToILCD1FieldMapping.get_statistics", "src/Lavoisier/conversions/ECS2_to_ILCD1_conversion.py:ECS2ToILCD1VariableConversion"]}
{"id": "C156", "title": "The log does not report more uncertainties or properties as converted than there are", "statement": "At the end of a conversion of EcoSpold2 to ILCD the number of uncertainties reported as converted is that of the uncertainties written, and neither it nor the number of properties reported as converted is negative or above the number found.", "quantifier": "for all lists of data sets and all options", "why_tests_cant": "Variables take one uncertainty from the counter before they are made and add one only if ILCD knows the distribution; merging of exchanges makes uncertainties a second time. Whether the counters come out right depends on the whole data set and the options.", "anchors": ["src/Lavoisier/conversions/ECS2_to_ILCD1_conversion.py:ECS2ToILCD1FieldMapping.get_statistics", "src/Lavoisier/conversions/ECS2_to_ILCD1_conversion.py:ECS2ToILCD1BasicFieldMapping.end_conversion"]}
{"id": "C157", "title": "An EcoSpold2 file with its mandatory elements gives an ILCD data set with all of its mandatory fields", "statement": "If every value computed from the file is accepted by the field it is assigned to and no single-valued field is given two, then the ILCD data set can be written just when the file delivers the identifier of the activity, its name, the short name of the geography and the file attributes, whatever else the file contains or leaves out and in whatever order.", "quantifier": "for all files, that is all sequences of delivered elements of any length, and all values", "why_tests_cant": "The mandatory fields of ILCD come from about forty entries of the mapping, from the defaults and from the end of the conversion; some groups come into being by being read. A test shows one file; which elements suffice and which are needed is a statement about all files.", "anchors": ["src/Lavoisier/conversions/ECS2_to_ILCD1_conversion.py:ECS2ToILCD1FieldMapping", "src/Lavoisier/conversions/ECS2_to_ILCD1_conversion.py:ECS2ToILCD1BasicFieldMapping", "src/Lavoisier/data_structures/main.py:DotDict.get_dict"]}
{"id": "C158", "title": "An ILCD process file with its mandatory elements gives an EcoSpold2 data set with all of its mandatory fields", "statement": "An ILCD process file that has the elements ILCD demands, with values accepted by the fields they are assigned to, is converted to an EcoSpold2 data set that can be written. False of the code: EcoSpold2 asks for the type of data set, the end of validity, contacts with identifiers, the copyright and an intermediate exchange, for which the code has no default; a process with elementary flows alone cannot be written. The exact list of elements that decides is proved.", "quantifier": "for all files, that is all sequences of delivered elements of any length, and all values", "why_tests_cant": "The mandatory fields of EcoSpold2 come from the mapping, from the defaults and from the end of the conversion. A test shows one file that has all of it or lacks one thing; which elements suffice and which are needed is a statement about all files.", "anchors": ["src/Lavoisier/conversions/ILCD1_to_ECS2_conversion.py:ILCD1ToECS2FieldMapping", "src/Lavoisier/conversions/ILCD1_to_ECS2_conversion.py:ILCD1ToECS2BasicFieldMapping", "src/Lavoisier/data_structures/main.py:DotDict.get_dict"]}
{"id": "C159", "title": "A conversion stops over repeated elements just when two of them give the same single-valued field", "statement": "If every value computed from the file is accepted by the field it is assigned to, a conversion goes through when no two delivered elements give the same single-valued field of the output (and no source used as the icon has several files), and stops with a ValueError otherwise, wherever in the file the elements are. Two system model names, which EcoSpold2 allows, stop it.", "quantifier": "for all files, that is all sequences of delivered elements of any length, in both directions", "why_tests_cant": "Whether a repetition does harm depends on the field, not on the element: most fields take several values. The list of those that do not is spread over the classes of two formats and the entries of two mappings.", "anchors": ["src/Lavoisier/conversions/ECS2_to_ILCD1_conversion.py:ECS2ToILCD1FieldMapping", "src/Lavoisier/conversions/ILCD1_to_ECS2_conversion.py:ILCD1ToECS2FieldMapping", "src/Lavoisier/data_structures/main.py:DotDict.__setitem__"]}
{"id": "C160", "title": "An ILCD file is recognised just when its names carry a language", "statement": "Before an ILCD file is converted its name, version and the numbers and names of its exchanges are read. This succeeds exactly if the first base name has an attribute such as xml:lang and every exchange has an internal number and one flow with one short description with an attribute; the name is then the text of the first base name, the version the first two parts of the attribute, and the names those of the exchanges in the order of the file. A description in two languages or without xml:lang, both permitted by ILCD, stops the conversion.", "quantifier": "for all documents, that is all trees of elements of any depth and size", "why_tests_cant": "The reader turns an element into a text, a dictionary or a list depending on its attributes and its neighbours. A test shows one shape; which documents are accepted is a statement about all trees.", "anchors": ["src/Lavoisier/formats/configurations.py:ILCD1InputConfig", "src/Lavoisier/converter.py:Converter._get_pre_instance_file_information", "src/Lavoisier/formats/utils.py:XMLStreamIterable"]}
{"id": "C161", "title": "Allocations name the co-products of their own file", "statement": "The names in which the allocations of an ILCD file are written are those of the exchanges of this file with the number stated, whatever was converted before. True of every file with exchanges numbered apart. False of the code otherwise: of two exchanges with one number the later gives the name, and a file without exchanges is refused if it is the first one and takes the names of an earlier file if not.", "quantifier": "for all documents and all earlier files", "why_tests_cant": "The names are kept in a class attribute that outlives the file. A test converts one file, or files with exchanges; the state left by all earlier files needs an argument over runs.", "anchors": ["src/Lavoisier/conversions/ILCD1_to_ECS2_conversion.py:ILCD1ToECS2FieldMapping.set_file_info", "src/Lavoisier/conversions/ILCD1_to_ECS2_conversion.py:ILCD1ToECS2FieldMapping.delete", "src/Lavoisier/converter.py:Converter._set_post_instance_file_information"]}
{"id": "C162", "title": "An EcoSpold2 file is recognised just when its first activity name can be read", "statement": "Before an EcoSpold2 file with data sets of one kind is converted its name, version and default language are read. For activities this succeeds exactly if the first activity name is not empty or has a language; for child activities only if it has an attribute. The name is the text of the first one, version and language those of the first file attributes; a file without default language takes that of the file before it.", "quantifier": "for all documents with data sets of one kind, that is all trees of elements of any depth and size", "why_tests_cant": "The same element is read as a text or a dictionary depending on its attributes, and the two kinds of data set are treated differently. A test shows one shape; which documents are accepted is a statement about all trees.", "anchors": ["src/Lavoisier/formats/configurations.py:ECS2InputConfig", "src/Lavoisier/converter.py:Converter._get_pre_instance_file_information", "src/Lavoisier/converter.py:Converter._set_post_instance_file_information"]}
{"id": "C163", "title": "Every product of an EcoSpold2 data set comes back from ILCD", "statement": "If an EcoSpold2 data set is converted to ILCD and the result back to EcoSpold2, its products come back one for one and in their order, each with the identifier it had, the value in the unit of ILCD of its dimension, an uncertainty of the same kind with the parameters of that value, and the unit of EcoSpold2 that belongs to the flow property of the flow. No other product is written. This holds whether or not equal elementary flows are summed.", "quantifier": "for all data sets with any number of exchanges, all identifiers, amounts, units and uncertainties, all mapping tables", "why_tests_cant": "The two conversions share nothing but files: a product is found again through the name of a file made from an enciphered identifier and a version. A test follows one data set; that no two products are confused in any data set is an argument over all of them.", "anchors": ["src/Lavoisier/conversions/ECS2_to_ILCD1_conversion.py:ECS2ToILCD1IntermediateFlowConversion", "src/Lavoisier/conversions/ECS2_to_ILCD1_conversion.py:ECS2ToILCD1ReferenceConversion", "src/Lavoisier/conversions/ILCD1_to_ECS2_conversion.py:ILCD1ToECS2FlowConversion", "src/Lavoisier/conversions/ILCD1_to_ECS2_conversion.py:ILCD1ToECS2FlowReferenceConversion"]}
{"id": "C164", "title": "The groups of products survive a conversion to ILCD and back", "statement": "A product of an EcoSpold2 data set has the same input or output group after a conversion to ILCD and back. False of the code: inputs of the groups 1 to 3 become 5, outputs of group 5 become 2, and an output keeps the groups 2 and 3 only if the first exchange with the same flow and properties is no waste or a waste. The exact condition is proved.", "quantifier": "for all data sets with any number of exchanges and all groups of the format", "why_tests_cant": "Whether a product is a waste is read from the file of its flow, which another exchange may have made. Which combinations survive is a statement about all data sets.", "anchors": ["src/Lavoisier/conversions/ECS2_to_ILCD1_conversion.py:ECS2ToILCD1IntermediateFlowConversion", "src/Lavoisier/conversions/ECS2_to_ILCD1_conversion.py:ECS2ToILCD1ReferenceConversion", "src/Lavoisier/conversions/ILCD1_to_ECS2_conversion.py:ILCD1ToECS2FlowConversion", "src/Lavoisier/conversions/ILCD1_to_ECS2_conversion.py:ILCD1ToECS2FlowReferenceConversion"]}
{"id": "C165", "title": "The names of products survive a conversion to ILCD and back", "statement": "A product of an EcoSpold2 data set has the same name after a conversion to ILCD and back. True if no two exchanges give the same flow with the same properties two names. False otherwise: the later ones come back with the name of the first.", "quantifier": "for all data sets with any number of exchanges and all names", "why_tests_cant": "The name is read from a file made by the first exchange of the flow; a test with distinct flows cannot see it.", "anchors": ["src/Lavoisier/conversions/ECS2_to_ILCD1_conversion.py:ECS2ToILCD1IntermediateFlowConversion", "src/Lavoisier/conversions/ECS2_to_ILCD1_conversion.py:ECS2ToILCD1ReferenceConversion", "src/Lavoisier/conversions/ILCD1_to_ECS2_conversion.py:ILCD1ToECS2FlowConversion", "src/Lavoisier/conversions/ILCD1_to_ECS2_conversion.py:ILCD1ToECS2FlowReferenceConversion"]}
{"id": "C166", "title": "Elementary exchanges come back from ILCD by way of both tables", "statement": "If an EcoSpold2 data set is converted to ILCD without summing equal flows and back, those elementary exchanges come back whose flow has a target in the first table that has a target in the second, in their order, with target, name and unit of the second table and the value multiplied by both factors and that of the unit of ILCD. The flow is the one of the source exactly if the tables are inverse for it, and the quantity exactly if factors and units make up for each other. Whether or not equal flows are summed, there or at the end, the total of every flow of the second table in every direction is the sum over all exchanges of the source of value times both factors times the units.", "quantifier": "for all data sets with any number of exchanges, all pairs of mapping tables", "why_tests_cant": "It depends on two tables with thousands of rows, which a user may replace. The statement is about all tables.", "anchors": ["src/Lavoisier/conversions/ECS2_to_ILCD1_conversion.py:ECS2ToILCD1IntermediateFlowConversion", "src/Lavoisier/conversions/ECS2_to_ILCD1_conversion.py:ECS2ToILCD1ReferenceConversion", "src/Lavoisier/conversions/ILCD1_to_ECS2_conversion.py:ILCD1ToECS2FlowConversion", "src/Lavoisier/conversions/ILCD1_to_ECS2_conversion.py:ILCD1ToECS2FlowReferenceConversion", "src/Lavoisier/conversions/ECS2_to_ILCD1_conversion.py:ECS2ToILCD1ElementaryFlowConversion"]}
{"id": "C167", "title": "Products are the same quantities after a conversion to ILCD and back", "statement": "Amount and unit of a product describe the same quantity after a conversion of an EcoSpold2 data set to ILCD and back. True of all units of the tables but two. False of money and of mass times time: euros of 2005 are divided by 1.11 and come back as euros of 2005; kilogram days are divided by 365.25 and come back as kilogram days.", "quantifier": "for all amounts and all units, all sizes of units under which the names of the same unit agree", "why_tests_cant": "The unit written and the unit read are in two tables joined by identifiers of flow properties. A test checks one unit, and equal numbers before and after would hide a change of unit.", "anchors": ["src/Lavoisier/conversions/ECS2_to_ILCD1_conversion.py:ECS2ToILCD1Amount", "src/Lavoisier/conversions/ILCD1_to_ECS2_conversion.py:ILCD1ToECS2FlowConversion", "src/Lavoisier/conversions/units.py"]}
{"id": "C168", "title": "Products of an ILCD data set come back from EcoSpold2", "statement": "If an ILCD data set is converted to EcoSpold2 and the result to ILCD again, exactly those products come back whose flow property has a unit in EcoSpold2, in their order, whether or not equal elementary flows are summed in either conversion: with the identifier of their flow, the value multiplied by the factor between the units, the distribution of their uncertainty with its width in the same proportion, as a reference flow exactly if they were one, and with a reference that leads to a file of that flow, named by an exchange of the flow. They are numbered anew, from 1 on; the elementary exchanges have higher numbers and no number is used twice.", "quantifier": "for all data sets with any number of exchanges, both settings of summing in both conversions, all orders of the set of elementary exchanges, all encryptions", "why_tests_cant": "What comes back depends on two conversions, two tables and the names of files made on the way; tests convert one way and compare a few exchanges.", "anchors": ["src/Lavoisier/conversions/ILCD1_to_ECS2_conversion.py:ILCD1ToECS2FlowConversion", "src/Lavoisier/conversions/ILCD1_to_ECS2_conversion.py:ILCD1ToECS2BasicFieldMapping", "src/Lavoisier/conversions/ECS2_to_ILCD1_conversion.py:ECS2ToILCD1FlowConversion", "src/Lavoisier/conversions/ECS2_to_ILCD1_conversion.py:ECS2ToILCD1IntermediateFlowConversion", "src/Lavoisier/data_structures/ECS2_structure.py:FlowData"]}
{"id": "C169", "title": "Direction and type of products survive a conversion to EcoSpold2 and back", "statement": "A product of an ILCD data set has the same direction and its flow the same type after a conversion to EcoSpold2 and back. False of the code: a reference flow that is an input, as in the treatment of a waste, comes back as an output, and a waste that is an input or a reference flow comes back as a product. Other flows come back as products. The exact conditions are proved.", "quantifier": "for all data sets with any number of exchanges, all directions and types of flows", "why_tests_cant": "The role of an exchange is changed by the first conversion and read as a direction by the second; a test of either alone finds nothing wrong.", "anchors": ["src/Lavoisier/conversions/ILCD1_to_ECS2_conversion.py:ILCD1ToECS2FlowConversion.finish_flow_info", "src/Lavoisier/conversions/ECS2_to_ILCD1_conversion.py:ECS2ToILCD1IntermediateFlowConversion"]}
{"id": "C170", "title": "Products are the same quantities after a conversion to EcoSpold2 and back", "statement": "A product of an ILCD data set has the same flow property and value after a conversion to EcoSpold2 and back. False of the code: amounts of money are divided by 1.11, and gross calorific values come back as net ones and normal volumes as volumes. A value is kept exactly if the unit of EcoSpold2 has the size of the unit of ILCD, which holds for all units of the tables but two; a flow property is kept exactly in the other cases.", "quantifier": "for all amounts and all flow properties of the table, all sizes of units", "why_tests_cant": "The unit of EcoSpold2 is put in the place of that of ILCD without conversion, and converted on the way back; only both tables together show it.", "anchors": ["src/Lavoisier/conversions/units.py:ilcd_to_ecs2_un", "src/Lavoisier/conversions/units.py:pint_to_ilcd_def", "src/Lavoisier/conversions/units.py:pint_to_ilcd_fp", "src/Lavoisier/conversions/ECS2_to_ILCD1_conversion.py:ECS2ToILCD1Amount.to_ilcd_unit", "src/Lavoisier/conversions/ILCD1_to_ECS2_conversion.py:ILCD1ToECS2FlowConversion.get_intermediate_flow_info"]}
{"id": "C171", "title": "Elementary exchanges of an ILCD data set come back by way of both tables", "statement": "If an ILCD data set is converted to EcoSpold2 and the result to ILCD again without summing, exactly those elementary exchanges come back whose flow has a row in the first table that has a row in the second, in their order, with the flow of the second table, their direction, and the value multiplied by both factors and that of the unit of the second table. With summing, in either conversion or both, the total of every flow in every direction is the same, provided that rows of the first table with the same flow have the same unit. False otherwise: a kilogram and a gram come back as two kilograms, or as 1.001 kilograms if they are summed in the middle.", "quantifier": "for all data sets with any number of exchanges, both settings of summing in both conversions, all orders of the set of elementary exchanges, all tables", "why_tests_cant": "The second conversion does not look at the unit of an elementary exchange. That shows only in totals after both conversions with rows in different units.", "anchors": ["src/Lavoisier/conversions/ILCD1_to_ECS2_conversion.py:ILCD1ToECS2FlowConversion.get_elementary_flow_info", "src/Lavoisier/conversions/ILCD1_to_ECS2_conversion.py:ILCD1ToECS2BasicFieldMapping", "src/Lavoisier/conversions/ECS2_to_ILCD1_conversion.py:ECS2ToILCD1ElementaryFlowConversion", "src/Lavoisier/conversions/ECS2_to_ILCD1_conversion.py:ECS2ToILCD1FlowConversion"]}
{"id": "C172", "title": "The uncertainty of a flow property is that of its value", "statement": "An uncertainty written in ILCD for a flow property is the distribution of the value written: that of the EcoSpold2 property scaled by the factor by which the amount was converted, or, for a property given per dry mass whose uncertainty and that of the dry mass are lognormal, the distribution of their product. An uncertainty that ILCD has a word for is missing exactly when the property is given per dry mass and the dry mass has an uncertainty that is not lognormal together with that of the property. The values are those of the conversion without uncertainties. The conversion stops if a lognormal content is zero, or its variance is, while the dry mass is lognormal.", "quantifier": "for all exchanges with any properties of distinct names, all amounts, units with positive factors and valid uncertainties, any positive dry mass", "why_tests_cant": "The uncertainty is rescaled at each of up to four steps, in three loops that depend on names and units of the other properties. Agreement as a distribution of the value needs all of them, for all amounts.", "anchors": ["src/Lavoisier/conversions/ECS2_to_ILCD1_conversion.py:ECS2ToILCD1FlowConversion", "src/Lavoisier/conversions/ECS2_to_ILCD1_conversion.py:ECS2ToILCD1Amount.multiply", "src/Lavoisier/conversions/ECS2_to_ILCD1_conversion.py:ECS2ToILCD1Amount.divide", "src/Lavoisier/conversions/ECS2_to_ILCD1_conversion.py:ECS2ToILCD1UncertaintyConversion"]}
{"id": "C173", "title": "The uncertainty of the variable of a property is that of the amount of the source", "statement": "A variable made for a property with a formula carries the uncertainty of the amount in EcoSpold2, before conversion, except exactly when the property is given per dry mass and both are lognormal: then the variable, with the value of the source, carries the variance of the product.", "quantifier": "for all exchanges with any properties of distinct names, all amounts, units and uncertainties", "why_tests_cant": "The original amount is a shallow copy that shares its uncertainty with the amount that is multiplied. It changes only when two lognormal uncertainties meet.", "anchors": ["src/Lavoisier/conversions/ECS2_to_ILCD1_conversion.py:ECS2ToILCD1Amount.multiply", "src/Lavoisier/conversions/ECS2_to_ILCD1_conversion.py:ECS2ToILCD1UncertaintyConversion._change_data", "src/Lavoisier/conversions/ECS2_to_ILCD1_conversion.py:ECS2ToILCD1VariableConversion"]}
{"id": "C174", "title": "The uncertainty of a property in EcoSpold2 is that of its amount", "statement": "A property of an exchange that comes from the file of its flow has the distribution that the file gives for its value, and there is one exactly if the file has one. It is the distribution of the amount written exactly if the amount is that of the file, or the content was divided by a dry mass of 1: a content that is divided by another dry mass keeps the distribution from before the division. The masses that are computed from an uncertain water content are certain. The conversion stops exactly if a property that EcoSpold2 knows has no number or unit, or lacks parameters of its uncertainty, or is lognormal with a standard deviation that is not positive.", "quantifier": "for all files of flows with any flow properties, all values, all units of the exchange, all uncertainties that do not concentrate on one point", "why_tests_cant": "The uncertainty is written before the division by the dry mass. A value outside of its bounds shows only for a content beside a water content or dry mass; that no other distribution survives a scaling is a statement about all measures of the kinds in use.", "anchors": ["src/Lavoisier/conversions/ILCD1_to_ECS2_conversion.py:ILCD1ToECS2FlowConversion", "src/Lavoisier/conversions/ILCD1_to_ECS2_conversion.py:ILCD1ToECS2Amount.divide", "src/Lavoisier/conversions/ILCD1_to_ECS2_conversion.py:ILCD1ToECS2Amount.calculate_unc", "src/Lavoisier/conversions/ILCD1_to_ECS2_conversion.py:ILCD1ToECS2UncertaintyConversion.calculate"]}
{"id": "C175", "title": "A file that was written can be read", "statement": "Every data set is written as a document that an XML parser takes. This is true exactly when all texts and all values of attributes consist of characters that XML allows: markup, quotes and line ends in texts do no harm, a control character makes the whole file unreadable.", "quantifier": "for all dictionaries that stand for an element, of any size and depth, with any texts", "why_tests_cant": "A text can contain any characters, in any combination with the quotes, brackets and ends of lines of the file around it.", "anchors": ["src/Lavoisier/formats/ILCD1_format.py:ILCD1Output.write_process", "src/Lavoisier/formats/ECS2_format.py:ECS2Output.write_process"]}
{"id": "C176", "title": "What is read of a written file is what was written", "statement": "Reading a written file delivers, under every path that is asked for, the values that were written there, each once and in their order. Values are the same up to prefixes, except that texts of white space and the text of an element with children are lost, and that ends of lines become line feeds.", "quantifier": "for all dictionaries that stand for an element, all paths and all requested keys", "why_tests_cant": "It is the composition of the serialiser, the parser and the streaming reader, over documents of any shape.", "anchors": ["src/Lavoisier/formats/ILCD1_format.py:ILCD1Output.write_process", "src/Lavoisier/formats/ECS2_format.py:ECS2Output.write_process", "src/Lavoisier/formats/utils.py:XMLStreamIterable"]}
{"id": "C177", "title": "Attributes come back as they were written", "statement": "The value of an attribute that is no declaration of a namespace is read exactly as it was written, with white space, quotes, markup and ends of lines of any kind.", "quantifier": "for all elements with any attributes and any values", "why_tests_cant": "The quoting depends on which kinds of quotes the value contains, and ends of lines are normalised by parsers unless they are written as references.", "anchors": ["src/Lavoisier/formats/ILCD1_format.py:ILCD1Output.write_process", "src/Lavoisier/formats/ECS2_format.py:ECS2Output.write_process", "src/Lavoisier/formats/utils.py:XMLStreamIterable"]}
{"id": "C178", "title": "No text can change the elements of a file", "statement": "Whatever the texts and the values of attributes contain, the elements that are read are those that were written, with the same names, attributes, children and order. No text can end its element, open another or become a comment.", "quantifier": "for all trees of elements with any texts", "why_tests_cant": "It is a statement about all texts, among them those made to break out of their element.", "anchors": ["src/Lavoisier/formats/ILCD1_format.py:ILCD1Output.write_process", "src/Lavoisier/formats/ECS2_format.py:ECS2Output.write_process"]}
{"id": "C179", "title": "The data sets of both formats are valid documents", "statement": "The document of any data set of ILCD (with and without the extensions of openLCA) or EcoSpold2 (with and without user master data) has valid names, declares every prefix it uses, names no attribute twice and no child in two ways, so that it is written and can be read with its values under their paths.", "quantifier": "for all data sets that the structures can hold, of any size", "why_tests_cant": "Which fields are present varies from data set to data set; one undeclared prefix in a rare field makes the file unreadable.", "anchors": ["src/Lavoisier/formats/ILCD1_format.py:ILCD1Output.write_process", "src/Lavoisier/formats/ECS2_format.py:ECS2Output.write_process", "src/Lavoisier/data_structures/ILCD1_structure.py:ILCD1Structure.get_dict", "src/Lavoisier/data_structures/ILCD1_structure.py:OLCAILCD1Structure.get_dict", "src/Lavoisier/data_structures/ECS2_structure.py:ECS2Structure.get_dict"]}
{"id": "C180", "title": "The tags of an exchange are named in its comment", "statement": "The comment of an ILCD exchange has a line that names the tags of the EcoSpold2 exchange, all of them and in order.", "quantifier": "for all exchange elements with any number of tags", "why_tests_cant": "The shape of the value that is read depends on the number of tags; the case of one tag is treated as a list of letters without any error.", "anchors": ["src/Lavoisier/conversions/ECS2_to_ILCD1_conversion.py:ECS2ToILCD1FlowConversion.__init__"]}
{"id": "C181", "title": "The comment of an exchange says all that is put into it", "statement": "In each language the comment of an exchange in ILCD consists of the line of the tags, the texts of the uncertainty, every comment of the EcoSpold2 exchange and every comment of its production volume, each as a paragraph of its own and in this order. There is one text for each language with paragraphs and none for others.", "quantifier": "for all exchange elements, with any number of comments in any allowed languages, and any texts of the uncertainty", "why_tests_cant": "The paragraphs are ordered by running numbers and merged by language; whether some of them collide depends on the number of comments and on the data set as a whole.", "anchors": ["src/Lavoisier/conversions/ECS2_to_ILCD1_conversion.py:ECS2ToILCD1FlowConversion.__init__", "src/Lavoisier/data_structures/validators/general_validators.py:MultiLangString"]}
{"id": "C182", "title": "The comments of ILCD exchanges reach EcoSpold2", "statement": "In each language the comment of the exchange in EcoSpold2 consists of the comments of the ILCD exchange, and in English of the lines that name its location, function, source and derivation. A comment that was converted from EcoSpold2 to ILCD comes back unchanged.", "quantifier": "for all exchange elements with any comments", "why_tests_cant": "The four elements are optional and may be empty in a file; empty ones take another way through the code.", "anchors": ["src/Lavoisier/conversions/ILCD1_to_ECS2_conversion.py:ILCD1ToECS2FlowConversion.__init__"]}
{"id": "C183", "title": "Exchanges that are summed keep their comments", "statement": "When elementary exchanges of the same flow are summed, the comments of all of them are said in the sum, each in its language and once.", "quantifier": "for all groups of exchanges of any size with any comments", "why_tests_cant": "Only groups with comments in several languages, or with an uncertainty in the sum, show the difference.", "anchors": ["src/Lavoisier/conversions/ECS2_to_ILCD1_conversion.py:ECS2ToILCD1FieldMapping.reset_conversion"]}
{"id": "C184", "title": "The details of a converted review state its type, scopes, methods, indicators and details", "statement": "The details of the EcoSpold2 review made from an ILCD review state its type, each scope with its validation methods, each data quality indicator with its value and each text of its details in its language, every one under an index of its own, and nothing else. The other details are said in their languages.", "quantifier": "for all review elements with any number of scopes, methods, indicators and details", "why_tests_cant": "Each of these is optional and may be given once or several times, which changes the value that is read; the indices come from a running number of the whole data set.", "anchors": ["src/Lavoisier/conversions/ILCD1_to_ECS2_conversion.py:ILCD1ToECS2ReviewConversion.__init__"]}
{"id": "C185", "title": "The text of a review tells which scopes, methods and indicators it had", "statement": "Two ILCD reviews whose EcoSpold2 details have the same text of scopes have the same scopes with the same methods in the same order; the same holds for the indicators and their values.", "quantifier": "for all lists of scopes with any methods and all lists of indicators, of any lengths", "why_tests_cant": "It is a statement about all pairs of reviews.", "anchors": ["src/Lavoisier/conversions/ILCD1_to_ECS2_conversion.py:ILCD1ToECS2ReviewConversion.__init__", "src/Lavoisier/data_structures/validators/enumerations.py:ScopeOfReviewValues"]}
{"id": "C186", "title": "The details of a review of EcoSpold2 are said in ILCD in each language", "statement": "The details of the ILCD review made from a review of EcoSpold2 have one text for each language. The English text begins with the lines on the date and the version of the review; then come, in each language, the texts of the review with their variables filled in, one paragraph for each index, by increasing index.", "quantifier": "for all review elements with any number of texts, languages and variables", "why_tests_cant": "Indices, languages and variables combine freely, and a single text or variable is read as another kind of value than several.", "anchors": ["src/Lavoisier/conversions/ECS2_to_ILCD1_conversion.py:ECS2ToILCD1ReviewConversion.__init__", "src/Lavoisier/conversions/ECS2_to_ILCD1_conversion.py:ECS2TTextAndImage.ILCDProcess"]}
{"id": "C187", "title": "Details of a review come back from ILCD in each language", "statement": "The details of a review of EcoSpold2 that are written in ILCD and converted back state, in each language, one text with the paragraphs of this language in order, without the lines on date and version, besides the type of the review, and nothing else.", "quantifier": "for all texts in all languages, all dates and all versions", "why_tests_cant": "It is a statement on two conversions in sequence, for all the texts that may come between the lines that are taken out.", "anchors": ["src/Lavoisier/conversions/ECS2_to_ILCD1_conversion.py:ECS2ToILCD1ReviewConversion.__init__", "src/Lavoisier/conversions/ILCD1_to_ECS2_conversion.py:ILCD1ToECS2ReviewConversion.review_comment"]}
{"id": "C188", "title": "The other details of a review are kept in each language", "statement": "The other details of a review of EcoSpold2 are said in ILCD, each in its language.", "quantifier": "for all review elements with any number of other details", "why_tests_cant": "Whether there is one text or several decides what kind of value is read.", "anchors": ["src/Lavoisier/conversions/ECS2_to_ILCD1_conversion.py:ECS2ToILCD1ReviewConversion.__init__"]}
{"id": "C189", "title": "Data of an ILCD process without a place in EcoSpold2 do not stop the conversion and are recorded", "statement": "Data of an ILCD process that EcoSpold2 has no field for (complementing processes, functional unit, sublocations, the LCI method, references to methods and data sources, completeness, compliance, time stamp, registration and so on) never stop the conversion, and the record of data that were not converted holds all of them, in the order of the document.", "quantifier": "for all XML documents, whatever other elements they have, and any record left by earlier files", "why_tests_cant": "Any of 24 paths may occur any number of times and in any form; whether an element has attributes decides about the kind of value that is delivered.", "anchors": ["src/Lavoisier/data_structures/ECS2_structure.py:ILCD1ToECS2DataNotConverted", "src/Lavoisier/data_structures/ECS2_structure.py:LIST.add", "src/Lavoisier/conversions/ILCD1_to_ECS2_conversion.py:ILCD1ToECS2FieldMapping.mapping"]}
{"id": "C190", "title": "Changing the list of elementary flows carries over the other data sets of the archive", "statement": "When an ILCD archive is converted to ILCD (only the list of elementary flows changes), the conversion succeeds for every archive, with or without sources and contacts, and the archive written has every source, contact and document of the archive read with the same content, beside the files of the package.", "quantifier": "for all archives with any folders and any number of files in them, all names and contents, and any number of data sets", "why_tests_cant": "Archives hold any number of files with any names, some of which are names of files of the package; folders may be missing or nested.", "anchors": ["src/Lavoisier/conversions/ILCD1_to_ILCD1_conversion.py:ILCD1ToILCD1BasicFieldMapping.set_file_info", "src/Lavoisier/conversions/ILCD1_to_ILCD1_conversion.py:ILCD1ToILCD1ElementaryFlowConversion.save_file", "src/Lavoisier/conversions/ILCD1_to_ILCD1_conversion.py:ILCD1ToILCD1ElementaryFlowConversion.save_original", "src/Lavoisier/formats/ILCD1_format.py:ILCD1Output.start_conversion"]}
{"id": "C191", "title": "The parameters written with a data set are those of the data set", "statement": "When ILCD data sets are converted to ILCD one after the other in one program, by the same or by new converters, each is written with the parameters of its own document only, and is converted as it would be in a program of its own.", "quantifier": "for all series of calls, each with any number of data sets, all parameters and exchanges, all errors at any place, all structures", "why_tests_cant": "What is written depends on everything that was converted before in the same program; a test starts with a new program and stops at the first error.", "anchors": ["src/Lavoisier/conversions/ILCD1_to_ILCD1_conversion.py:ILCD1ToILCD1ElementaryFlowConversion.math_rel", "src/Lavoisier/conversions/ILCD1_to_ILCD1_conversion.py:ILCD1ToILCD1FieldMapping.reset_conversion", "src/Lavoisier/conversions/ILCD1_to_ILCD1_conversion.py:ILCD1ToILCD1FieldMapping.mapping", "src/Lavoisier/converter.py:Converter.convert"]}
{"id": "C192", "title": "The error reported for an ILCD data set is the one that occurred", "statement": "If the conversion of an ILCD data set to ILCD fails, the error raised by the call is the error that occurred.", "quantifier": "for all series of data sets, all errors at any place; for all mappings that cannot be deleted, all formats, files and earlier calls", "why_tests_cant": "It concerns every error of every part of the program; each would need a file that produces it.", "anchors": ["src/Lavoisier/converter.py:Converter.convert", "src/Lavoisier/conversions/ILCD1_to_ILCD1_conversion.py:ILCD1ToILCD1FieldMapping"]}
{"id": "C193", "title": "Every field of the output format can be filled", "statement": "For each field of the groups that a conversion works on there is a source file whose conversion fills it. In particular the classification of an ILCD process reaches the EcoSpold2 data set.", "quantifier": "for all fields of all groups of both output formats; that a field is never filled is for all source files (any elements in any order and number), all values, all validators and all values of the defaults", "why_tests_cant": "That a field is never filled is a statement on all files; a test sees the files it has, and nobody asks for a field that no output ever had.", "anchors": ["src/Lavoisier/conversions/ILCD1_to_ECS2_conversion.py:ILCD1ToECS2FieldMapping", "src/Lavoisier/conversions/ILCD1_to_ECS2_conversion.py:ILCD1ToECS2ClassificationConversion", "src/Lavoisier/conversions/ECS2_to_ILCD1_conversion.py:ECS2ToILCD1FieldMapping", "src/Lavoisier/data_structures/main.py:DotDict"]}
{"id": "C194", "title": "Default files arrive in the archive byte for byte", "statement": "copy_file(save, defaults, folder, id) into an existing archive folder, other than the folder of the default files, ends without an error and makes save/folder/id.xml equal to defaults/id.xml in every byte, whatever the size of the file and whatever was at its place before; no other file changes, and copying again changes nothing. If the package has no such file, the call raises an OSError and no file changes.", "quantifier": "all file systems, all contents of all sizes, all identifiers and folders", "why_tests_cant": "The file is copied in pieces whose length depends on its size; a test copies files of a few sizes.", "anchors": ["src/Lavoisier/conversions/utils.py:76-89"]}
{"id": "C195", "title": "A download of the flows is complete or leaves nothing", "statement": "After any number of calls of download(), the folder of the elementary flows is either complete, with every file of the repository, or not there, and the files of the package can then be found by copy_file.", "quantifier": "all file systems, all repositories, all sequences of calls and all points of failure", "why_tests_cant": "The transfer may stop after any file; the order of failures and successes over many starts is not bounded.", "anchors": ["src/Lavoisier/download_external_files.py:10-26", "src/Lavoisier/conversions/utils.py:85-89"]}
{"id": "C196", "title": "Every date of a time period is read", "statement": "The start and the end of the time period of an EcoSpold2 data set are read for every date that the schema allows, and the years written are those of the dates. True of dates without a zone in the years from 1000 to 9999, and of dates with a time of UTC and at most six decimals of a second. False of the code for a date with a zone (2010-01-01Z, 2010-01-01+01:00), for a time with another zone or none, and for more decimals: the conversion stops with a ValueError.", "quantifier": "every date of the calendar, every time, every text", "why_tests_cant": "all dates of the calendar with leap years, and all texts that are not dates; the reading tries three formats with optional digits and spaces", "anchors": ["src/Lavoisier/conversions/ECS2_to_ILCD1_conversion.py:get_time_object"]}
