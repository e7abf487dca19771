{
 "claims": [
  {
   "property": "C01",
   "status": "proved",
   "theorems": [
    "Verif.Uuid.uuid_roundtrip_ecs_ilcd_ecs",
    "Verif.Uuid.uuid_roundtrip_ilcd_ecs_ilcd",
    "Verif.Uuid.uuid_roundtrip_exact"
   ],
   "note": "CFB-8 over an arbitrary block cipher; both directions."
  },
  {
   "property": "C02",
   "status": "proved",
   "theorems": [
    "Verif.Uuid.uuid_injective"
   ],
   "note": ""
  },
  {
   "property": "C03",
   "status": "proved",
   "theorems": [
    "Verif.Uuid.uuid_shape"
   ],
   "note": ""
  },
  {
   "property": "C04",
   "status": "partial",
   "theorems": [
    "Verif.Uuid.uuid_malformed_accepted",
    "Verif.Uuid.uuid_accepts_iff_partial",
    "Verif.Uuid.uuid_other_kind",
    "Verif.Uuid.uuid_other_key",
    "Verif.Uuid.lavKey_bytes"
   ],
   "note": "False of the code: over-long texts are accepted. The exact acceptance condition is proved."
  },
  {
   "property": "C05",
   "status": "partial",
   "theorems": [
    "Verif.TextSplit.pieces_within_limit",
    "Verif.TextSplit.limit_fifty_fails",
    "Verif.TextSplit.split_within_limit_iff"
   ],
   "note": "Proved for every limit but 50 (split_within_limit_iff): with a limit of 50 and a longer sentence the conversion stops, otherwise every piece is within the limit. For the limits below 50 that is because longer sentences are left out (C06)."
  },
  {
   "property": "C06",
   "status": "partial",
   "theorems": [
    "Verif.TextSplit.last_word_lost",
    "Verif.TextSplit.short_limit_loses_all",
    "Verif.TextSplit.content_kept_partial",
    "Verif.TextSplit.content_sublist_partial",
    "Verif.TextSplit.short_limit_kept",
    "Verif.TextSplit.short_limit_loss_iff"
   ],
   "note": "False of the code for a sentence longer than the limit (witnesses); proved when no sentence exceeds the limit, and nothing is invented in general. For the limits below 50 exactly the sentences within the limit are kept (short_limit_kept, short_limit_loss_iff)."
  },
  {
   "property": "C07",
   "status": "partial",
   "theorems": [
    "Verif.LangText.multilang_written_partial",
    "Verif.LangText.multilang_pieces",
    "Verif.LangText.one_language_two_entries"
   ],
   "note": "Proved for all histories when no text has to be split; false otherwise (witness), and the general form with pieces is proved."
  },
  {
   "property": "C08",
   "status": "partial",
   "theorems": [
    "Verif.LangText.multilang_written_partial",
    "Verif.LangText.multilang_pieces",
    "Verif.LangText.plain_written",
    "Verif.LangText.second_text",
    "Verif.LangText.unlimited_iff"
   ],
   "note": "Whole texts are exactly those of the specification, for every history; splitting into pieces is C05 and C06."
  },
  {
   "property": "C09",
   "status": "proved",
   "theorems": [
    "Verif.Validators.limited_text",
    "Verif.Validators.limit_enforced",
    "Verif.Validators.limit_ignored",
    "Verif.Validators.limit_enforced_last"
   ],
   "note": ""
  },
  {
   "property": "C10",
   "status": "proved",
   "theorems": [
    "Verif.Validators.enum_content",
    "Verif.Validators.enum_only_listed",
    "Verif.Validators.enum_reject",
    "Verif.Validators.enum_list_filled",
    "Verif.Validators.enum_single"
   ],
   "note": ""
  },
  {
   "property": "C100",
   "status": "partial",
   "theorems": [
    "Verif.TextImage.textUuid_iff",
    "Verif.TextImage.textUuid_error_iff",
    "Verif.TextImage.findId_iff",
    "Verif.TextImage.seed_read",
    "Verif.TextImage.seed_injective",
    "Verif.TextImage.seed_collision",
    "Verif.TextImage.addSource_iff",
    "Verif.TextImage.addSource_refused",
    "Verif.TextImage.doImages_iff",
    "Verif.TextImage.second_image_lost",
    "Verif.TextImage.images_apart_partial",
    "Verif.TextImage.identified_unique"
   ],
   "note": "The identifier is described exactly for every text. The random generator is a parameter that gives UUIDs; that it gives different ones for different numbers is a hypothesis of images_apart_partial."
  },
  {
   "property": "C101",
   "status": "partial",
   "theorems": [
    "Verif.RepTexts.texts_arrive_partial",
    "Verif.RepTexts.converted_iff",
    "Verif.RepTexts.run_shows",
    "Verif.RepTexts.run_ok_iff",
    "Verif.RepTexts.run_error",
    "Verif.RepTexts.plain_deviation_stops",
    "Verif.RepTexts.no_language_stops"
   ],
   "note": "Proved for data sets without the lines that the programme itself writes and for texts up to 32000 characters (longer ones are split, C07); false for texts without attributes in four of the fields and without a language."
  },
  {
   "property": "C102",
   "status": "partial",
   "theorems": [
    "Verif.RepTexts.trip_texts",
    "Verif.RepTexts.trip_good",
    "Verif.RepTexts.trip_exists",
    "Verif.RepTexts.english_grows",
    "Verif.RepTexts.other_language_kept_partial",
    "Verif.RepTexts.other_language_heading",
    "Verif.RepTexts.silence_lost"
   ],
   "note": "False: the exact growth is proved for any number of conversions. The sampling procedure in languages other than English is kept."
  },
  {
   "property": "C103",
   "status": "partial",
   "theorems": [
    "Verif.Sentences.words_kept_partial",
    "Verif.Sentences.unquoted_kept",
    "Verif.Sentences.text_kept",
    "Verif.Sentences.sentences_ne_nil",
    "Verif.Sentences.long_text_kept",
    "Verif.Sentences.long_text_words",
    "Verif.Sentences.full_stop_lost",
    "Verif.Sentences.quote_moved",
    "Verif.Sentences.marks_lost"
   ],
   "note": "False of the code as stated; words_kept_partial and unquoted_kept hold for every text, text_kept for every text without the risky places, which are listed. White space is not considered."
  },
  {
   "property": "C104",
   "status": "partial",
   "theorems": [
    "Verif.Sentences.decimals_cut",
    "Verif.Sentences.decimals_lost"
   ],
   "note": "False of the code; proved for every text without the marks of the code that no sentence, and no piece if no sentence is longer than the limit, shows a number with decimals."
  },
  {
   "property": "C105",
   "status": "proved",
   "theorems": [
    "Verif.Sentences.plain_exact",
    "Verif.Sentences.abbreviations_kept",
    "Verif.Sentences.openers_start",
    "Verif.Sentences.longer_words_open_nothing",
    "Verif.Sentences.other_points_cut"
   ],
   "note": "plain_exact holds for every list of plain sentences; the others pin the tables of abbreviations."
  },
  {
   "property": "C106",
   "status": "partial",
   "theorems": [
    "Verif.FlowFiles.flows_found",
    "Verif.FlowFiles.reference_of",
    "Verif.FlowFiles.same_reference_iff",
    "Verif.FlowFiles.folder_exact",
    "Verif.FlowFiles.converted_iff",
    "Verif.FlowFiles.default_version",
    "Verif.FlowFiles.version_form_iff",
    "Verif.FlowFiles.version_accepted",
    "Verif.FlowFiles.names_of_uuid",
    "Verif.FlowFiles.read_again",
    "Verif.FlowFiles.shared_id_dangling",
    "Verif.FlowFiles.later_description_lost"
   ],
   "note": "Proved for data sets in which no elementary exchange has the identifier of an intermediate one and different identifiers are converted to different ones without underscores (names_of_uuid: UUIDs in small letters are); shared_id_dangling, later_description_lost and version_form_iff show what is false without that."
  },
  {
   "property": "C107",
   "status": "partial",
   "theorems": [
    "Verif.FlowFiles.database_exact",
    "Verif.FlowFiles.database_finds_iff",
    "Verif.FlowFiles.database_found_partial",
    "Verif.FlowFiles.database_elementary",
    "Verif.FlowFiles.each_file_found",
    "Verif.FlowFiles.database_overwritten"
   ],
   "note": "False of the code; database_exact says for every sequence of data sets which properties are found."
  },
  {
   "property": "C108",
   "status": "proved",
   "theorems": [
    "Verif.Classes.class_written",
    "Verif.Classes.class_too_deep",
    "Verif.Classes.class_by_name",
    "Verif.Classes.class_unknown",
    "Verif.Classes.value_unused",
    "Verif.Classes.mapped_text_fits",
    "Verif.Classes.unknown_text_fits_iff",
    "Verif.Classes.squeeze_eq"
   ],
   "note": "class_written says for every row with at most ten levels that the classes are the only ones with these names, numbers and identifiers."
  },
  {
   "property": "C109",
   "status": "partial",
   "theorems": [
    "Verif.Classes.process_class_iff_partial",
    "Verif.Classes.process_class_exceptions",
    "Verif.Classes.unknown_not_listed",
    "Verif.Classes.flow_class_never",
    "Verif.Classes.flow_names_iff_partial",
    "Verif.Classes.file_found_iff",
    "Verif.Classes.simple_listed_partial"
   ],
   "note": "False of the code; for processes the exact exceptions are listed, for flows no class at all is right (flow_class_never), flow_names_iff_partial says when the names are."
  },
  {
   "property": "C11",
   "status": "partial",
   "theorems": [
    "Verif.Validators.review_date_latest_clock",
    "Verif.Validators.review_date_latest_partial",
    "Verif.Validators.review_date_not_latest",
    "Verif.Validators.review_date_order_dependent",
    "Verif.Validators.review_date_first",
    "Verif.Validators.review_date_order_iff",
    "Verif.Validators.review_date_latest_iff"
   ],
   "note": "True when all dates are in one time zone; false in general because wall clocks are compared (witnesses). The exact conditions for both parts of the statement are review_date_order_iff and review_date_latest_iff; the date kept is the first of those with the latest clock reading."
  },
  {
   "property": "C110",
   "status": "partial",
   "theorems": [
    "Verif.Classes.flow_order_partial",
    "Verif.Classes.process_order_partial",
    "Verif.Classes.priority_not_first",
    "Verif.Classes.flow_converted_iff",
    "Verif.Classes.byProduct_last"
   ],
   "note": "False of the code (priority_not_first); proved that all classifications of the two systems are written, in the order of the source, and when a conversion stops."
  },
  {
   "property": "C111",
   "status": "partial",
   "theorems": [
    "Verif.RefUnits.amount_kept_partial",
    "Verif.RefUnits.exchange_amount_partial",
    "Verif.RefUnits.converted",
    "Verif.RefUnits.converted_base",
    "Verif.RefUnits.duration_as_years",
    "Verif.RefUnits.duration_not_kept",
    "Verif.RefUnits.currency_kept_iff",
    "Verif.RefUnits.time_units"
   ],
   "note": "False of the code for time (duration_not_kept, for every duration other than nought); proved for all other dimensions, for currency exactly if EUR and EUR2000 are the same."
  },
  {
   "property": "C112",
   "status": "proved",
   "theorems": [
    "Verif.RefUnits.references_lead",
    "Verif.RefUnits.row_file",
    "Verif.RefUnits.stale_not_copied"
   ],
   "note": "For every sequence of requests; stale_not_copied shows that the reset of all_data is needed."
  },
  {
   "property": "C113",
   "status": "partial",
   "theorems": [
    "Verif.RefUnits.known_ok_iff",
    "Verif.RefUnits.moles_stop",
    "Verif.RefUnits.unit_ok_iff",
    "Verif.RefUnits.unit_error",
    "Verif.RefUnits.property_ok",
    "Verif.RefUnits.run_ok_iff",
    "Verif.RefUnits.known_keys"
   ],
   "note": "False of the code for three of eighteen dimensions (moles_stop); run_ok_iff says for every sequence of requests whether it is answered."
  },
  {
   "property": "C114",
   "status": "partial",
   "theorems": [
    "Verif.RefUnits.order_kept_partial",
    "Verif.RefUnits.order_lost"
   ],
   "note": "False of the code for three dimensions (order_lost); proved for every order of the factors of the other fifteen."
  },
  {
   "property": "C115",
   "status": "partial",
   "theorems": [
    "Verif.RefUnits.unit_name_partial",
    "Verif.RefUnits.unit_name_wrong"
   ],
   "note": "False of the code for two units."
  },
  {
   "property": "C116",
   "status": "proved",
   "theorems": [
    "Verif.Naming.index_agrees"
   ],
   "note": "For every sequence of elements that is converted."
  },
  {
   "property": "C117",
   "status": "partial",
   "theorems": [
    "Verif.Naming.name_first_partial",
    "Verif.Naming.name_none",
    "Verif.Naming.name_id",
    "Verif.Naming.id_of_name_partial",
    "Verif.Naming.name_first_id_last",
    "Verif.Naming.id_of_other_name",
    "Verif.Naming.linked_id",
    "Verif.Naming.search_link",
    "Verif.Naming.comment_link"
   ],
   "note": "False of the code for several base names (name_first_id_last, id_of_other_name); name_id says for every file which identifier it is. That equal names have equal identifiers and different ones different ones is the injectivity of uuid_from_string (C01)."
  },
  {
   "property": "C118",
   "status": "partial",
   "theorems": [
    "Verif.Naming.master_joined_partial",
    "Verif.Naming.master_other_name",
    "Verif.Naming.parts_lost",
    "Verif.Naming.back_other_name"
   ],
   "note": "False of the code (master_other_name, back_other_name); master_joined_partial and parts_lost say what is written, for texts within the limits or with the limits ignored."
  },
  {
   "property": "C119",
   "status": "partial",
   "theorems": [
    "Verif.Naming.place_identified",
    "Verif.Naming.no_place",
    "Verif.Naming.listed_valid",
    "Verif.Naming.listed_distinct",
    "Verif.Naming.listed_injective",
    "Verif.Naming.location_accepted",
    "Verif.Naming.there_and_back",
    "Verif.Naming.unlisted_place_renumbered",
    "Verif.Naming.two_shortnames_stop",
    "Verif.Naming.uuidOk_iff"
   ],
   "note": "False of the code for locations that are not listed and for two short names; the rest is proved for every file."
  },
  {
   "property": "C12",
   "status": "partial",
   "theorems": [
    "Verif.Validators.code_fields_exact_partial",
    "Verif.Validators.year_exact_partial",
    "Verif.Validators.int6_exact_partial",
    "Verif.Validators.int1_exact_partial",
    "Verif.Validators.number_text_same",
    "Verif.Validators.fraction_is_cut",
    "Verif.Validators.percent_exact_partial",
    "Verif.Validators.percent_nan_accepted",
    "Verif.Validators.number_read_iff",
    "Verif.Validators.percent_of_bool",
    "Verif.Validators.list_keeps_all"
   ],
   "note": "Exact for integers and texts of integers; fractions are cut and NaN is an accepted percentage (witnesses)."
  },
  {
   "property": "C120",
   "status": "partial",
   "theorems": [
    "Verif.Naming.synonyms_back_partial",
    "Verif.Naming.english_synonyms_kept",
    "Verif.Naming.synonym_turned_english",
    "Verif.Naming.synonym_divided"
   ],
   "note": "False of the code; synonyms_back_partial says for every list without the separator what comes back."
  },
  {
   "property": "C121",
   "status": "partial",
   "theorems": [
    "Verif.Naming.base_name_iff",
    "Verif.Naming.name_part_iff",
    "Verif.Naming.bare_name_stops",
    "Verif.Naming.returnText_iff"
   ],
   "note": "False of the code for base names."
  },
  {
   "property": "C122",
   "status": "partial",
   "theorems": [
    "Verif.Archive.self_contained_iff",
    "Verif.Archive.self_contained_partial",
    "Verif.Archive.process_leads",
    "Verif.Archive.property_there_iff",
    "Verif.Archive.contact_there_iff",
    "Verif.Archive.several_properties",
    "Verif.Archive.owner_missing",
    "Verif.Archive.hydrogen_missing",
    "Verif.Archive.process_references",
    "Verif.Archive.property_compliance_iff"
   ],
   "note": "False of the code for some elementary flows and one flow property; self_contained_iff is the exact condition, process_leads holds without condition."
  },
  {
   "property": "C123",
   "status": "partial",
   "theorems": [
    "Verif.Inputs.delivered_process",
    "Verif.Inputs.all_delivered_iff",
    "Verif.Inputs.one_folder_partial",
    "Verif.Inputs.other_folder_lost",
    "Verif.Inputs.root_name_lost"
   ],
   "note": "Nothing else is ever converted (delivered_process); all_delivered_iff is the exact condition for all being converted; false of the code in general."
  },
  {
   "property": "C124",
   "status": "partial",
   "theorems": [
    "Verif.Inputs.deliver_all",
    "Verif.Inputs.deliver_stops",
    "Verif.Inputs.not_delivered_iff",
    "Verif.Inputs.xml_accepted",
    "Verif.Inputs.ilcd_directory_all"
   ],
   "note": "False of the code: deliver_stops gives what happens exactly."
  },
  {
   "property": "C125",
   "status": "proved",
   "theorems": [
    "Verif.Inputs.ecs_directory",
    "Verif.Inputs.ilcd_directory"
   ],
   "note": ""
  },
  {
   "property": "C126",
   "status": "partial",
   "theorems": [
    "Verif.Unconverted.parameter_ok",
    "Verif.Unconverted.volume_ok",
    "Verif.Unconverted.property_ok",
    "Verif.Unconverted.flow_ok",
    "Verif.Unconverted.flow_recorded",
    "Verif.Unconverted.intermediate_ok_partial",
    "Verif.Unconverted.elementary_ok_partial",
    "Verif.Unconverted.intermediate_recorded",
    "Verif.Unconverted.elementary_recorded",
    "Verif.Unconverted.allocation_context_stops",
    "Verif.Unconverted.allocation_context_error",
    "Verif.Unconverted.product_classification",
    "Verif.Unconverted.activity_classification",
    "Verif.Unconverted.review_ok",
    "Verif.Unconverted.data_set_ok",
    "Verif.Unconverted.data_set_recorded",
    "Verif.Unconverted.entry_ok",
    "Verif.Unconverted.entry_recorded",
    "Verif.Unconverted.generator_ok",
    "Verif.Unconverted.required_context_ok",
    "Verif.Unconverted.required_context_recorded",
    "Verif.Unconverted.no_location_stops",
    "Verif.Unconverted.parameter_recorded",
    "Verif.Unconverted.volume_recorded",
    "Verif.Unconverted.property_recorded"
   ],
   "note": "Exact conditions for every record; the code fails for allocation_context_stops, activity_classification (second case), no_location_stops and the company context in generator_ok."
  },
  {
   "property": "C127",
   "status": "partial",
   "theorems": [
    "Verif.Shapes.leaf_value",
    "Verif.Shapes.entry_reads_partial",
    "Verif.Shapes.prefix_kept",
    "Verif.Shapes.needs_language",
    "Verif.Shapes.registration_number",
    "Verif.Shapes.others_read"
   ],
   "note": "Exact condition for every entry and every text; false of the code for the eight entries of needs_language."
  },
  {
   "property": "C128",
   "status": "partial",
   "theorems": [
    "Verif.Shapes.ensureList_children",
    "Verif.Shapes.comments_read",
    "Verif.Shapes.flow_name",
    "Verif.Shapes.property_name_partial",
    "Verif.Shapes.property_name_value",
    "Verif.Shapes.source_name_partial",
    "Verif.Shapes.second_language_stops",
    "Verif.Shapes.children_value"
   ],
   "note": "Proved for comments, flows and reviewers; exact condition for flow properties and sources, where the code fails."
  },
  {
   "property": "C129",
   "status": "partial",
   "theorems": [
    "Verif.UnitNames.unit_read_partial",
    "Verif.UnitNames.unit_value_partial",
    "Verif.UnitNames.accepted_iff",
    "Verif.UnitNames.denominator_partial",
    "Verif.UnitNames.denominator_differs",
    "Verif.UnitNames.horsepower_hours",
    "Verif.UnitNames.negative_exponent"
   ],
   "note": "For all products and quotients of powers (names of letters, spaces, hyphens and underscores, exponents up to 4) without the five formulas and without \"/hp.h\": the text given to pint is that of the same product or quotient, and its value is the product with each power multiplied or divided as its own sign says. Accepted exactly if pint knows the text. False of the code for two powers behind a division (denominator_partial with denominator_differs, horsepower_hours for the only exception) and for negative exponents (negative_exponent). Exponents from 5 on and numbers in units are not covered."
  },
  {
   "property": "C13",
   "status": "partial",
   "theorems": [
    "Verif.Validators.pattern_accepts_iff",
    "Verif.Validators.pattern_rejects_iff",
    "Verif.Validators.uuid_accepts_iff_partial",
    "Verif.Validators.version_accepts_iff_partial",
    "Verif.Validators.cas_accepts_iff_partial",
    "Verif.Validators.pattern_trailing_garbage",
    "Verif.Validators.pattern_not_exact",
    "Verif.Validators.variable_name_accepts_iff",
    "Verif.Validators.variable_name_limit"
   ],
   "note": "False of the code as stated; the exact accepted language is proved."
  },
  {
   "property": "C130",
   "status": "partial",
   "theorems": [
    "Verif.UnitNames.formula_keeps_digits",
    "Verif.UnitNames.prefix_not_raised",
    "Verif.UnitNames.other_formula"
   ],
   "note": "False of the code; the three theorems say what it does instead: no digit of a text with one of the five formulas becomes an exponent, the value is off by the prefix to the power n-1, every other formula with a digit from 2 to 4 becomes a power."
  },
  {
   "property": "C131",
   "status": "partial",
   "theorems": [
    "Verif.UnitNames.correct_twice_partial",
    "Verif.UnitNames.formula_unit_partial",
    "Verif.UnitNames.correct_twice_fails"
   ],
   "note": "Proved for all texts without an opening bracket; correct_twice_fails is a text with brackets that is changed again."
  },
  {
   "property": "C132",
   "status": "partial",
   "theorems": [
    "Verif.MapFile.csv_exact",
    "Verif.MapFile.decided",
    "Verif.MapFile.unique_decides",
    "Verif.MapFile.absent_reported",
    "Verif.MapFile.earlier_ignored",
    "Verif.MapFile.no_column",
    "Verif.MapFile.user_table",
    "Verif.MapFile.no_map_type",
    "Verif.MapFile.no_factor"
   ],
   "note": "The table is proved to be used exactly by the last row of each flow, for all tables; every row is used if no flow is named twice. False of the code for flows with several rows (earlier_ignored)."
  },
  {
   "property": "C133",
   "status": "partial",
   "theorems": [
    "Verif.MapFile.setter_iff",
    "Verif.MapFile.csv_found_iff",
    "Verif.MapFile.json_found_iff",
    "Verif.MapFile.missing_table",
    "Verif.MapFile.relative_lost",
    "Verif.MapFile.user_table"
   ],
   "note": "Proved for absolute paths; for relative ones the exact condition, and relative_lost: the file of the user is not found."
  },
  {
   "property": "C134",
   "status": "partial",
   "theorems": [
    "Verif.MapFile.decided",
    "Verif.MapFile.marks_missed",
    "Verif.MapFile.short_record",
    "Verif.MapFile.absent_reported"
   ],
   "note": "The exact marks of both directions; marks_missed and short_record are the rows that are not reported."
  },
  {
   "property": "C135",
   "status": "partial",
   "theorems": [
    "Verif.Settings.default_works",
    "Verif.Settings.read_back",
    "Verif.Settings.rejected",
    "Verif.Settings.rejected_no_effect",
    "Verif.Settings.use_iff",
    "Verif.Settings.iterator_exchanged",
    "Verif.Settings.manager_exchanged",
    "Verif.Settings.struct_exchanged",
    "Verif.Settings.version_iff",
    "Verif.Settings.factory_unknown",
    "Verif.Settings.factory_known"
   ],
   "note": "False of the code; proved exactly which assignments are accepted and which of them work."
  },
  {
   "property": "C136",
   "status": "partial",
   "theorems": [
    "Verif.Settings.printed_iff",
    "Verif.Settings.empty_mapping_unprintable",
    "Verif.Settings.shown_attribute",
    "Verif.Settings.option_line",
    "Verif.Settings.option_names"
   ],
   "note": "The lines of the options are proved right; printing works exactly until the empty mapping configuration has been assigned."
  },
  {
   "property": "C137",
   "status": "partial",
   "theorems": [
    "Verif.ConvLog.found_reported",
    "Verif.ConvLog.endLog_reported",
    "Verif.ConvLog.ecs_list_partial",
    "Verif.ConvLog.ilcd_list",
    "Verif.ConvLog.ilcd_list_misses",
    "Verif.ConvLog.list_list_misses",
    "Verif.ConvLog.tab_not_listed",
    "Verif.ConvLog.odd_id_not_listed"
   ],
   "note": "Proved for EcoSpold2 to ILCD with plain names and identifiers; the exact list for the other direction, and the flows that are left out."
  },
  {
   "property": "C138",
   "status": "partial",
   "theorems": [
    "Verif.ConvLog.own_log",
    "Verif.ConvLog.earlier_listed",
    "Verif.ConvLog.earlier_listed_witness"
   ],
   "note": "True of a new log; earlier_listed is the exact list of a continued one."
  },
  {
   "property": "C139",
   "status": "partial",
   "theorems": [
    "Verif.UncText.pedigree_back_partial",
    "Verif.UncText.pedigree_only_partial",
    "Verif.UncText.variance_plain",
    "Verif.UncText.variance_cut",
    "Verif.UncText.variance_exponent",
    "Verif.UncText.variance_sign",
    "Verif.UncText.scores_by_place",
    "Verif.UncText.scores_named_iff",
    "Verif.UncText.scores_swapped",
    "Verif.UncText.long_lost"
   ],
   "note": "Exact result for comments within the limit; variance_cut, variance_sign, scores_named_iff and long_lost say when it is not the value that was given."
  },
  {
   "property": "C14",
   "status": "partial",
   "theorems": [
    "Verif.LangText.indexed_in_order_partial",
    "Verif.LangText.tenth_before_second",
    "Verif.LangText.images_in_order",
    "Verif.LangText.indexed_by_digits",
    "Verif.LangText.later_first"
   ],
   "note": "True for one-digit indices; false for every field with a paragraph from 2 to 9 and one from 10 to 19 (later_first). indexed_by_digits gives the order that is used, for every history: that of the decimal digits as a text."
  },
  {
   "property": "C140",
   "status": "partial",
   "theorems": [
    "Verif.UncText.pedigree_back_partial",
    "Verif.UncText.comment_always",
    "Verif.UncText.comment_added",
    "Verif.UncText.comment_added_written",
    "Verif.UncText.pedigree_only_partial",
    "Verif.UncText.comments_back_partial"
   ],
   "note": "False of the code; the theorems give the exact comment that comes back."
  },
  {
   "property": "C141",
   "status": "partial",
   "theorems": [
    "Verif.UncText.other_back_partial",
    "Verif.UncText.kind_back",
    "Verif.UncText.params_back",
    "Verif.UncText.other_silent_iff",
    "Verif.UncText.other_incomplete_stops",
    "Verif.UncText.long_other_lost",
    "Verif.UncText.other_back_false"
   ],
   "note": "True within the limit of 500 characters, false beyond it."
  },
  {
   "property": "C142",
   "status": "partial",
   "theorems": [
    "Verif.Params.parameter_written_partial",
    "Verif.Params.nameless_lost"
   ],
   "note": "Proved for parameters with a name or a formula; nameless_lost: the others leave no trace."
  },
  {
   "property": "C143",
   "status": "partial",
   "theorems": [
    "Verif.Params.unit_back_partial",
    "Verif.Params.unit_text_iff",
    "Verif.Params.unit_written_iff",
    "Verif.Params.dimensionless_lost",
    "Verif.Params.bracketed_comment_is_unit",
    "Verif.Params.composed_unit_changed",
    "Verif.Params.no_unit_no_name"
   ],
   "note": "The exact condition on the text of the unit; false of the code for composed units, units without dimension and texts in brackets in later languages."
  },
  {
   "property": "C144",
   "status": "partial",
   "theorems": [
    "Verif.Params.comments_back_partial",
    "Verif.Params.brackets_lost"
   ],
   "note": "Proved for comments without brackets and within the limit, of parameters without uncertainty; brackets_lost for the others."
  },
  {
   "property": "C145",
   "status": "partial",
   "theorems": [
    "Verif.Params.conversion_names_distinct_partial",
    "Verif.Params.conversion_names_collide",
    "Verif.Params.collision_wrong_factor"
   ],
   "note": "Proved for all units with plain symbols; conversion_names_collide for symbols with digits, and what follows of it for the factors."
  },
  {
   "property": "C146",
   "status": "partial",
   "theorems": [
    "Verif.Params.name_written_iff",
    "Verif.Params.conversion_back_iff",
    "Verif.Params.converted_back_iff",
    "Verif.Params.converted_name_stops"
   ],
   "note": "False of the code; the exact condition on the lengths is proved."
  },
  {
   "property": "C147",
   "status": "partial",
   "theorems": [
    "Verif.UncText.unc_converted_iff",
    "Verif.UncText.wrong_score",
    "Verif.UncText.otherParams_iff",
    "Verif.UncText.unc_silent_iff",
    "Verif.UncText.pedigree_stops_iff",
    "Verif.UncText.four_scores_stop",
    "Verif.UncText.missing_variance_stops"
   ],
   "note": "False of the code; the exact condition in both directions and the errors are proved."
  },
  {
   "property": "C148",
   "status": "proved",
   "theorems": [
    "Verif.Products.volume_stated",
    "Verif.Products.volumes_stated",
    "Verif.Products.volume_comments_kept",
    "Verif.Products.volume_no_number",
    "Verif.Products.name_unreadable",
    "Verif.Products.no_name"
   ],
   "note": "For all products whose first name can be read; the other branches are stated as errors."
  },
  {
   "property": "C149",
   "status": "partial",
   "theorems": [
    "Verif.Products.volume_uncertainty_lost",
    "Verif.Products.volume_uncertainty_not_read",
    "Verif.Products.volume_uncertainty_stops"
   ],
   "note": "False of the code: the statement does not depend on the uncertainty."
  },
  {
   "property": "C15",
   "status": "partial",
   "theorems": [
    "Verif.LangText.named_unique",
    "Verif.LangText.used_name_rejected",
    "Verif.LangText.used_name_value_error",
    "Verif.LangText.named_written_partial",
    "Verif.LangText.written_name_twice"
   ],
   "note": "The field never holds a name twice; what is written can repeat one when a text is split (witness)."
  },
  {
   "property": "C150",
   "status": "partial",
   "theorems": [
    "Verif.Products.link_and_cas_are_attributes",
    "Verif.Products.link_lost",
    "Verif.Products.cas_lost",
    "Verif.Products.sample_loses",
    "Verif.Products.link_of_child"
   ],
   "note": "False of the code: never written, for every element without children of these names."
  },
  {
   "property": "C151",
   "status": "partial",
   "theorems": [
    "Verif.Products.flow_of",
    "Verif.Products.name_kept_partial",
    "Verif.Products.languages_lost",
    "Verif.Products.german_name_as_english",
    "Verif.Products.no_synonyms"
   ],
   "note": "Proved for an English first name; the exact result and what it does not depend on are proved."
  },
  {
   "property": "C152",
   "status": "partial",
   "theorems": [
    "Verif.FileNames.ecs_title",
    "Verif.FileNames.ilcd_title",
    "Verif.FileNames.no_slash",
    "Verif.FileNames.ecs_output_eq",
    "Verif.FileNames.ecs_saved_iff",
    "Verif.FileNames.ecs_files",
    "Verif.FileNames.ilcd_saved_iff",
    "Verif.FileNames.ilcd_files",
    "Verif.FileNames.archive_saved_iff",
    "Verif.FileNames.plain_saved_partial",
    "Verif.FileNames.long_name_stops",
    "Verif.FileNames.saved_and_failed",
    "Verif.FileNames.wide_names_fail",
    "Verif.FileNames.slashes_fail",
    "Verif.FileNames.files_stay",
    "Verif.FileNames.no_title"
   ],
   "note": "False of the code for long names; the two saved_iff theorems are the exact conditions, plain_saved_partial the case of ASCII names within the limits of EcoSpold2."
  },
  {
   "property": "C153",
   "status": "partial",
   "theorems": [
    "Verif.Included.part_read",
    "Verif.Included.languages_joined",
    "Verif.Included.kept_iff",
    "Verif.Included.language_lost",
    "Verif.Included.several_lines",
    "Verif.Included.end_lines",
    "Verif.Included.no_end",
    "Verif.Included.written_whole",
    "Verif.Included.plain_kept",
    "Verif.Included.back_iff"
   ],
   "note": "False of the code; kept_iff is the exact condition on the languages for texts of one line, the other theorems say what happens to texts of several lines and to a start without an end."
  },
  {
   "property": "C154",
   "status": "partial",
   "theorems": [
    "Verif.Energy.kind_ignored",
    "Verif.Energy.unit_kind",
    "Verif.Energy.always_net",
    "Verif.Energy.kind_kept_iff",
    "Verif.Energy.energy_converted"
   ],
   "note": "False of the code for gross calorific values (the attribute is set under another name than it is read); kind_kept_iff is the exact condition, unit_kind says the choice itself would be right."
  },
  {
   "property": "C155",
   "status": "proved",
   "theorems": [
    "Verif.Stats.products_counted",
    "Verif.Stats.elementary_counted",
    "Verif.Stats.volumes_counted",
    "Verif.Stats.variables_counted"
   ],
   "note": "For all lists of data sets and options; found variables include formulas for production volumes that are not there."
  },
  {
   "property": "C156",
   "status": "partial",
   "theorems": [
    "Verif.Stats.uncertainties_counted_partial",
    "Verif.Stats.uncertainties_at_most",
    "Verif.Stats.properties_counted",
    "Verif.Stats.uncertainties_negative",
    "Verif.Stats.uncertainties_exceed",
    "Verif.Stats.properties_exceed",
    "Verif.Stats.parameters_uncounted",
    "Verif.Stats.sums_counted"
   ],
   "note": "False of the code; exact for exchanges and flow properties if exchanges are not added and ILCD knows the distributions; the converted number can be any negative number, or exceed the found one."
  },
  {
   "property": "C157",
   "status": "proved",
   "theorems": [
    "Verif.Assign.toIlcd_written_iff",
    "Verif.Assign.toIlcd_complete",
    "Verif.Assign.toIlcd_keys",
    "Verif.DotDict.written_iff_mandatory"
   ],
   "note": "For all sequences of delivered elements; that the values are accepted and the assigned instances complete is the hypothesis of the statement. The table of assignments is transcribed from the mapping."
  },
  {
   "property": "C158",
   "status": "partial",
   "theorems": [
    "Verif.Assign.toEcs2_written_iff",
    "Verif.Assign.no_intermediate_not_written",
    "Verif.Assign.toEcs2_keys"
   ],
   "note": "False of the code; toEcs2_written_iff is the exact list of elements that decides, no_intermediate_not_written the case of elementary flows alone."
  },
  {
   "property": "C159",
   "status": "proved",
   "theorems": [
    "Verif.Assign.toIlcd_converts_iff",
    "Verif.Assign.toEcs2_converts_iff",
    "Verif.Assign.toIlcd_repeat_stops",
    "Verif.Assign.toEcs2_repeat_stops",
    "Verif.Assign.two_system_models_stop",
    "Verif.DotDict.fills_iff_once_each"
   ],
   "note": "For all sequences of delivered elements with accepted values; the lists of single-valued fields are part of the statement and proved to be those of the tables."
  },
  {
   "property": "C16",
   "status": "proved",
   "theorems": [
    "Verif.DotDict.unknown_field_rejected",
    "Verif.DotDict.only_known_fields",
    "Verif.DotDict.absent_group_is_empty",
    "Verif.DotDict.sign_left_out"
   ],
   "note": ""
  },
  {
   "property": "C160",
   "status": "proved",
   "theorems": [
    "Verif.FirstPass.ilcd_first_pass_iff",
    "Verif.FirstPass.ilcd_first_pass",
    "Verif.FirstPass.two_descriptions_stop",
    "Verif.FirstPass.plain_description_stops",
    "Verif.FirstPass.plain_name_stops"
   ],
   "note": "For all well-named documents: the exact condition and the result. That some permitted documents are refused is part of the statement."
  },
  {
   "property": "C161",
   "status": "partial",
   "theorems": [
    "Verif.FirstPass.names_of_file",
    "Verif.FirstPass.names_by_number",
    "Verif.FirstPass.fileInfo_iff",
    "Verif.FirstPass.no_exchanges_stop",
    "Verif.FirstPass.no_exchanges_old_names",
    "Verif.FirstPass.after_error"
   ],
   "note": "Proved for every file with exchanges, with the last exchange of a number giving the name; for files without exchanges the statement is refuted (refused, or the names of an earlier file)."
  },
  {
   "property": "C162",
   "status": "proved",
   "theorems": [
    "Verif.FirstPass.ecs2_first_pass_iff",
    "Verif.FirstPass.ecs2_first_pass",
    "Verif.FirstPass.plain_child_stops",
    "Verif.FirstPass.plain_activity_passes",
    "Verif.FirstPass.language_kept"
   ],
   "note": "For all well-named documents whose data sets are of one kind."
  },
  {
   "property": "C163",
   "status": "proved",
   "theorems": [
    "Verif.RoundTrip.products_back",
    "Verif.RoundTrip.products_back_merged"
   ],
   "note": "For identifiers in small letters, groups of the format, targets of elementary flows that are no products, and numbers that are read as they were written (`Setting`, `Legible`). Name and groups are C165 and C164, the quantity C167."
  },
  {
   "property": "C164",
   "status": "partial",
   "theorems": [
    "Verif.RoundTrip.products_back",
    "Verif.RoundTrip.same_groups_iff",
    "Verif.RoundTrip.same_groups_own",
    "Verif.RoundTrip.not_kept"
   ],
   "note": "False of the code; same_groups_iff is the exact condition, not_kept a waste that comes back as a by-product."
  },
  {
   "property": "C165",
   "status": "partial",
   "theorems": [
    "Verif.RoundTrip.products_back",
    "Verif.RoundTrip.same_name_iff",
    "Verif.RoundTrip.names_back",
    "Verif.RoundTrip.first_unique",
    "Verif.RoundTrip.not_kept"
   ],
   "note": "False of the code; same_name_iff is the exact condition, names_back the case of unambiguous names, not_kept a product that takes the name of another."
  },
  {
   "property": "C166",
   "status": "proved",
   "theorems": [
    "Verif.RoundTrip.elementary_back",
    "Verif.RoundTrip.same_flow_iff",
    "Verif.RoundTrip.same_elementary_quantity_iff",
    "Verif.RoundTrip.elementary_total",
    "Verif.RoundTrip.elementary_total_merged"
   ],
   "note": "elementary_total holds with and without summing on the way there, elementary_total_merged with summing at the end of the way back. Same assumptions as C163 (Setting, Legible)."
  },
  {
   "property": "C167",
   "status": "partial",
   "theorems": [
    "Verif.RoundTrip.unit_back",
    "Verif.RoundTrip.quantity_back",
    "Verif.RoundTrip.same_quantity_partial",
    "Verif.RoundTrip.stranger_quantity_iff",
    "Verif.RoundTrip.money_back",
    "Verif.RoundTrip.mass_time_back"
   ],
   "note": "False of the code for two units (money_back, mass_time_back); same_quantity_partial for all others of the tables, stranger_quantity_iff exactly when the two would be kept."
  },
  {
   "property": "C168",
   "status": "proved",
   "theorems": [
    "Verif.RoundIlcd.products_back",
    "Verif.RoundIlcd.products_numbered"
   ],
   "note": "products_back and products_numbered under the assumptions of Setting (one key, identifiers in small letters, no product with the identifier of an elementary flow) and Legible (numbers are read as written)."
  },
  {
   "property": "C169",
   "status": "partial",
   "theorems": [
    "Verif.RoundIlcd.direction_kept_iff",
    "Verif.RoundIlcd.type_kept_iff",
    "Verif.RoundIlcd.type_back",
    "Verif.RoundIlcd.treatment_lost"
   ],
   "note": "False of the code (treatment_lost); direction_kept_iff, type_kept_iff and type_back give the exact conditions."
  },
  {
   "property": "C17",
   "status": "proved",
   "theorems": [
    "Verif.DotDict.single_value_kept",
    "Verif.DotDict.second_value_rejected",
    "Verif.DotDict.two_values_rejected"
   ],
   "note": "For every path, history and format."
  },
  {
   "property": "C170",
   "status": "partial",
   "theorems": [
    "Verif.RoundIlcd.value_back",
    "Verif.RoundIlcd.value_kept_iff",
    "Verif.RoundIlcd.value_kept_partial",
    "Verif.RoundIlcd.money_back",
    "Verif.RoundIlcd.property_back",
    "Verif.RoundIlcd.property_kept_iff",
    "Verif.RoundIlcd.counterpart"
   ],
   "note": "False of the code (money_back, property_kept_iff). Exactly described by value_kept_iff and property_back; value_kept_partial for the units with another name. Four units of the table have no counterpart (counterpart); what pint makes of them is not modelled."
  },
  {
   "property": "C171",
   "status": "partial",
   "theorems": [
    "Verif.RoundIlcd.elementary_back",
    "Verif.RoundIlcd.elementary_total",
    "Verif.RoundIlcd.total_depends_on_summing"
   ],
   "note": "elementary_total holds with SameUnits if the first conversion sums; without SameUnits it is false (total_depends_on_summing). elementary_back needs no such condition."
  },
  {
   "property": "C172",
   "status": "partial",
   "theorems": [
    "Verif.PropUnc.convert_erase",
    "Verif.PropUnc.uncertainty_exact",
    "Verif.PropUnc.uncertainty_missing_iff",
    "Verif.PropUnc.lognormal_zero_stops",
    "Verif.PropUnc.convert_succeeds",
    "Verif.PropUnc.zero_content_stops",
    "Verif.PropUnc.uncertainty_lost"
   ],
   "note": "False where the uncertainty is dropped or the conversion stops; both conditions are proved exact or necessary, with witnesses (`uncertainty_lost`, `zero_content_stops`)."
  },
  {
   "property": "C173",
   "status": "partial",
   "theorems": [
    "Verif.PropUnc.variable_uncertainty_iff",
    "Verif.PropUnc.variable_wrong"
   ],
   "note": "False in the case named; `variable_uncertainty_iff` is the exact condition and `variable_wrong` a witness."
  },
  {
   "property": "C174",
   "status": "partial",
   "theorems": [
    "Verif.IlcdPropUnc.convert_plain",
    "Verif.IlcdPropUnc.convert_iff",
    "Verif.IlcdPropUnc.uncertainty_of_file",
    "Verif.IlcdPropUnc.uncertainty_of_value",
    "Verif.IlcdPropUnc.convert_succeeds_iff",
    "Verif.IlcdPropUnc.amount_outside_bounds"
   ],
   "note": "False of contents divided by a dry mass other than 1; `uncertainty_of_value` is the exact condition and `amount_outside_bounds` a witness."
  },
  {
   "property": "C18",
   "status": "partial",
   "theorems": [
    "Verif.DotDict.failed_assignment_leaves_values",
    "Verif.DotDict.failed_assignment_unchanged_partial",
    "Verif.DotDict.failed_assignment_prefix"
   ],
   "note": "False of the code for lists of values; the exact effect is proved."
  },
  {
   "property": "C19",
   "status": "proved",
   "theorems": [
    "Verif.DotDict.written_iff_complete",
    "Verif.DotDict.missing_mandatory"
   ],
   "note": ""
  },
  {
   "property": "C20",
   "status": "proved",
   "theorems": [
    "Verif.DotDict.written_in_order",
    "Verif.DotDict.order_independent_of_assignment",
    "Verif.Schema.ecs2_order_independent",
    "Verif.Schema.ilcd_order_independent"
   ],
   "note": ""
  },
  {
   "property": "C21",
   "status": "proved",
   "theorems": [
    "Verif.Schema.ecs2_names_distinct",
    "Verif.Schema.ilcd_names_distinct",
    "Verif.Schema.formats_good_order",
    "Verif.Schema.formats_closed"
   ],
   "note": "Over the transcribed field tables of both formats."
  },
  {
   "property": "C22",
   "status": "proved",
   "theorems": [
    "Verif.Xml.elements_delivered",
    "Verif.Xml.attributes_delivered",
    "Verif.Xml.read_in_closing_order",
    "Verif.Xml.stream_prefix"
   ],
   "note": "For documents whose names are XML names."
  },
  {
   "property": "C23",
   "status": "proved",
   "theorems": [
    "Verif.Xml.element_represented",
    "Verif.Xml.children_kept",
    "Verif.Xml.attribute_lost"
   ],
   "note": "For documents in which no element has two attributes of the same local name (otherwise one is lost, witness)."
  },
  {
   "property": "C24",
   "status": "proved",
   "theorems": [
    "Verif.Output.checkName_fresh",
    "Verif.Output.checkName_minimal"
   ],
   "note": ""
  },
  {
   "property": "C25",
   "status": "proved",
   "theorems": [
    "Verif.Driver.to_file_outputs"
   ],
   "note": ""
  },
  {
   "property": "C26",
   "status": "partial",
   "theorems": [
    "Verif.Driver.database_archive_partial",
    "Verif.Driver.database_complete_partial",
    "Verif.Driver.database_loses",
    "Verif.Driver.database_complete_iff"
   ],
   "note": "True exactly when the identifiers of the data sets differ (database_complete_iff); otherwise the data set of the last file with an identifier remains and the others are lost."
  },
  {
   "property": "C27",
   "status": "partial",
   "theorems": [
    "Verif.Options.setAttr_iff",
    "Verif.Options.rejected_keeps",
    "Verif.Options.options_hold_flags_partial",
    "Verif.Options.number_accepted",
    "Verif.Options.defaults_bool",
    "Verif.Options.options_present",
    "Verif.Options.defaults_documented"
   ],
   "note": "False as stated: the numbers 1 and 0 are accepted too. The exact acceptance condition and its preservation are proved."
  },
  {
   "property": "C28",
   "status": "partial",
   "theorems": [
    "Verif.Options.getConverter_ok_iff",
    "Verif.Options.any_list_accepted",
    "Verif.Options.usable_iff"
   ],
   "note": "The exact acceptance condition is proved; with equal formats the elementary flow lists are not checked."
  },
  {
   "property": "C29",
   "status": "partial",
   "theorems": [
    "Verif.Driver.failure_sticks",
    "Verif.Driver.failure_sticks_example",
    "Verif.Driver.recovers_partial"
   ],
   "note": "False of the code for later files of the same version, which is proved; holds when nothing was begun and the version differs."
  },
  {
   "property": "C30",
   "status": "partial",
   "theorems": [
    "Verif.Uncertainty.round_trip",
    "Verif.Uncertainty.round_trip_negative"
   ],
   "note": "Proved for the distribution parameters over the real numbers, with the inverse factor and positive lognormal values; for negative ones the logarithmic mean comes back as 0 (proved). The basic variance and the pedigree scores travel as comment text, which is not modelled here."
  },
  {
   "property": "C31",
   "status": "partial",
   "theorems": [
    "Verif.Uncertainty.bounds_enclose_partial",
    "Verif.Uncertainty.bounds_negative_lognormal",
    "Verif.Uncertainty.bounds_negative_factor",
    "Verif.Uncertainty.elementary_bounds_miss",
    "Verif.IlcdFlows.exchange_uncertainty",
    "Verif.IlcdFlows.limits_enclose",
    "Verif.IlcdFlows.limits_reversed"
   ],
   "note": "True for positive factors and values; for negative ones the bounds are exchanged and for elementary flows with a mapping factor they can miss the value, all proved. From ILCD to EcoSpold2 the uncertainty is rescaled with the amount (exchange_uncertainty), the limits enclose it under positive factors."
  },
  {
   "property": "C32",
   "status": "partial",
   "theorems": [
    "Verif.Uncertainty.scaled_exact",
    "Verif.Uncertainty.scaled_value",
    "Verif.Uncertainty.product_exact",
    "Verif.Uncertainty.quotient_exact",
    "Verif.Uncertainty.elementary_lognormal",
    "Verif.Uncertainty.sum_exact_iff",
    "Verif.Uncertainty.sum_certain",
    "Verif.Uncertainty.elementary_normal_iff"
   ],
   "note": "The written distribution is exactly the push-forward (as a probability measure) for unit conversions, products and quotients. False for sums and for the factor of elementary flows with normal, triangular or uniform uncertainty; the exact conditions are proved."
  },
  {
   "property": "C33",
   "status": "partial",
   "theorems": [
    "Verif.EcsFlows.exchanges_numbered",
    "Verif.EcsFlows.merge_identifiers",
    "Verif.EcsFlows.merge_gap"
   ],
   "note": "Proved without summing of equal flows. With it the identifiers are different, in order and include the reference flows, but have gaps (witness)."
  },
  {
   "property": "C34",
   "status": "partial",
   "theorems": [
    "Verif.EcsFlows.versions_distinguish",
    "Verif.EcsFlows.versions_clash"
   ],
   "note": "Proved within a data set; false between the data sets of a database, which is proved."
  },
  {
   "property": "C35",
   "status": "proved",
   "theorems": [
    "Verif.EcsFlows.merge_total",
    "Verif.EcsFlows.unmerged",
    "Verif.EcsFlows.merge_sources",
    "Verif.EcsFlows.merge_fails_iff",
    "Verif.IlcdFlows.merge_total",
    "Verif.IlcdFlows.sum_ok_iff"
   ],
   "note": "For both directions; from ILCD to EcoSpold2 for every order of the set of exchanges and counted in base units."
  },
  {
   "property": "C36",
   "status": "partial",
   "theorems": [
    "Verif.EcsFlows.exchanges_accounted",
    "Verif.EcsFlows.elementary_converted",
    "Verif.IlcdFlows.exchanges_accounted",
    "Verif.IlcdFlows.exchange_amounts",
    "Verif.IlcdFlows.unit_unknown_lost"
   ],
   "note": "For elementary exchanges proved in both directions: each is written with the target and the factor, or reported. From ILCD to EcoSpold2 a product without a known unit is only entered in the log (witness)."
  },
  {
   "property": "C37",
   "status": "partial",
   "theorems": [
    "Verif.Refs.files_of_first",
    "Verif.Refs.master_sources",
    "Verif.Refs.contacts_exact",
    "Verif.Refs.own_files_found",
    "Verif.Refs.exchange_mixed",
    "Verif.Refs.pages_of_first"
   ],
   "note": "Each identifier has one file (EcoSpold2 to ILCD) and one entry (ILCD to EcoSpold2), for every sequence of references, and it is that of the first reference; what later references would say is lost (pages_of_first)."
  },
  {
   "property": "C38",
   "status": "partial",
   "theorems": [
    "Verif.EcsVars.parameters_distinct",
    "Verif.EcsVars.references_defined",
    "Verif.EcsVars.variables_defined_partial",
    "Verif.EcsVars.conversions_defined",
    "Verif.EcsVars.eq_name_undefined",
    "Verif.IlcdVars.variables_once_partial",
    "Verif.IlcdVars.factor_circular",
    "Verif.IlcdVars.used_twice",
    "Verif.IlcdVars.defined_twice",
    "Verif.IlcdVars.original_lost",
    "Verif.IlcdVars.new_name_taken",
    "Verif.IlcdVars.name_kept_iff",
    "Verif.IlcdVars.name_begins_with_letter",
    "Verif.IlcdVars.unknown_variable",
    "Verif.EcsVars.eqName_iff",
    "Verif.IlcdVars.no_formula_partial",
    "Verif.IlcdVars.original_reached"
   ],
   "note": "EcoSpold2 to ILCD: names are distinct and every reference is defined, except for user names of the form Eq_aa_1 (witness). ILCD to EcoSpold2: proved for distinct names used once, false otherwise (witnesses)."
  },
  {
   "property": "C39",
   "status": "partial",
   "theorems": [
    "Verif.IlcdVars.rename_keeps_meaning_partial",
    "Verif.IlcdVars.formulas_kept_partial",
    "Verif.IlcdVars.rename_inside",
    "Verif.IlcdVars.rename_again",
    "Verif.IlcdVars.formula_renamed_twice",
    "Verif.EcsVars.conversion_kept",
    "Verif.IlcdVars.nameless_breaks"
   ],
   "note": "Renaming keeps the meaning of formulas when no name occurs inside another; false otherwise (witnesses)."
  },
  {
   "property": "C40",
   "status": "partial",
   "theorems": [
    "Verif.IlcdFlows.groups_always_valid",
    "Verif.IlcdFlows.merge_groups",
    "Verif.IlcdFlows.group_exists_iff",
    "Verif.IlcdFlows.elementary_reference_stops"
   ],
   "note": "Every group written is valid; an elementary reference flow (and a flow of an unknown type) stops the conversion instead, which is proved exactly."
  },
  {
   "property": "C41",
   "status": "proved",
   "theorems": [
    "Verif.IlcdFlows.ids_distinct",
    "Verif.IlcdFlows.merge_ids",
    "Verif.IlcdFlows.id_search_ends",
    "Verif.IlcdFlows.id_search_may_not_end"
   ],
   "note": "With and without summing. The search for an unused identifier ends if the hash (uuid3, a parameter) has no collisions."
  },
  {
   "property": "C42",
   "status": "partial",
   "theorems": [
    "Verif.IlcdProps.energy_marks",
    "Verif.IlcdProps.energy_code",
    "Verif.IlcdProps.energy_without_values"
   ],
   "note": "The code is that of the heating values of the flow files; a data set without heating values gets 1 (net), not 0 (undefined), proved."
  },
  {
   "property": "C43",
   "status": "partial",
   "theorems": [
    "Verif.Tables.inverse_last",
    "Verif.Tables.inverse_exact",
    "Verif.Tables.codes_exact",
    "Verif.Tables.compartments_exact",
    "Verif.Tables.models_kept_iff",
    "Verif.Tables.models_identified",
    "Verif.Tables.model_ids",
    "Verif.Tables.licenses_kept_iff",
    "Verif.Tables.unit_has_flow_property",
    "Verif.Tables.unit_without_flow_property",
    "Verif.Tables.flow_property_has_unit",
    "Verif.Tables.groups_agree",
    "Verif.Tables.flow_properties_agree_iff",
    "Verif.Tables.elementary_flow_property",
    "Verif.Admin.type_back",
    "Verif.Admin.type_stops",
    "Verif.Admin.type_round",
    "Verif.Admin.type_kept_iff",
    "Verif.Admin.status_written_iff",
    "Verif.Admin.status_back",
    "Verif.Admin.unknown_stops"
   ],
   "note": "For every table it is proved which entries come back; the tables that are turned round by the program are exact, of the tables written by hand the entries that are lost are listed."
  },
  {
   "property": "C44",
   "status": "partial",
   "theorems": [
    "Verif.Admin.version_written",
    "Verif.Admin.version_unstated",
    "Verif.Admin.version_valid_iff",
    "Verif.Admin.version_back",
    "Verif.Admin.version_round",
    "Verif.Admin.ilcd_version_read",
    "Verif.Admin.ilcd_version_round",
    "Verif.Admin.version_without_point",
    "Verif.Admin.version_letter"
   ],
   "note": "For all numbers: the exact condition under which a version is written, is valid and is kept; false for major releases of ten and more and for minor releases and major revisions, which are lost."
  },
  {
   "property": "C45",
   "status": "partial",
   "theorems": [
    "Verif.IlcdProps.masses_consistent",
    "Verif.IlcdProps.content_times_dry",
    "Verif.IlcdProps.volume_gets_mass"
   ],
   "note": "Proved for every product with a water content; a product in m3 gets a wet mass of 1 kg (proved), because its unit is compared with another spelling."
  },
  {
   "property": "C46",
   "status": "partial",
   "theorems": [
    "Verif.IlcdList.getUri_iff",
    "Verif.IlcdList.units_exact",
    "Verif.IlcdList.read_plain",
    "Verif.IlcdList.amount_scaled",
    "Verif.IlcdList.bounds_scaled",
    "Verif.IlcdList.unc_exact",
    "Verif.IlcdList.normal_halved",
    "Verif.IlcdList.normal_wrong",
    "Verif.IlcdList.undefined_mixed",
    "Verif.IlcdList.others_unscaled",
    "Verif.IlcdList.others_wrong",
    "Verif.IlcdList.same_unit",
    "Verif.IlcdList.same_unit_right_iff",
    "Verif.IlcdList.no_unit_retargeted",
    "Verif.IlcdList.no_unit_iff",
    "Verif.IlcdList.no_match_kept",
    "Verif.IlcdList.unmapped_silent",
    "Verif.IlcdList.reported_iff",
    "Verif.IlcdList.mean_kept",
    "Verif.IlcdList.unit_is_group",
    "Verif.IlcdList.amountGiven_iff"
   ],
   "note": "The amount, and the bounds of triangular and uniform distributions, are proved to be multiplied by the factor of the table and of the flow property. False of the rest: normal and undefined distributions, log-normal bounds, the factor between equal units, the mean amount, and exchanges reported as not converted that refer to the target; each is proved exactly."
  },
  {
   "property": "C47",
   "status": "partial",
   "theorems": [
    "Verif.DotDict.reading_breaks_writing",
    "Verif.DotDict.reading_present_unchanged_partial"
   ],
   "note": "False of the code (witness); true when the groups are present."
  },
  {
   "property": "C48",
   "status": "partial",
   "theorems": [
    "Verif.DotDict.wrong_class_accepted",
    "Verif.DotDict.right_class_partial"
   ],
   "note": "False of the code for ready-made instances (witness); true otherwise."
  },
  {
   "property": "C49",
   "status": "partial",
   "theorems": [
    "Verif.Validators.latitude_bound",
    "Verif.Validators.south_pole_rejected",
    "Verif.Validators.longitude_unbounded",
    "Verif.Validators.gis_three_digits",
    "Verif.Validators.gis_accepts_iff"
   ],
   "note": "False of the code (witnesses). The exact condition for acceptance is proved (gis_accepts_iff): a latitude, a semicolon and the first digit of a longitude, with the rest ignored; the bound on latitudes follows."
  },
  {
   "property": "C50",
   "status": "proved",
   "theorems": [
    "Verif.Validators.bool_exact",
    "Verif.Validators.bool_numbers",
    "Verif.Validators.bool_written_reads_back",
    "Verif.Validators.bool_written",
    "Verif.Validators.bool_fractions"
   ],
   "note": ""
  },
  {
   "property": "C51",
   "status": "partial",
   "theorems": [
    "Verif.LangText.name_of_any_length"
   ],
   "note": "False of the code, for every name."
  },
  {
   "property": "C52",
   "status": "partial",
   "theorems": [
    "Verif.LangText.name_written_partial",
    "Verif.LangText.name_cut",
    "Verif.LangText.classification_written_partial",
    "Verif.LangText.classification_cut"
   ],
   "note": "True for texts within the limit (`name_written_partial`, `classification_written_partial`); false for longer ones, of which exactly the first (last) piece is written, which is proved."
  },
  {
   "property": "C53",
   "status": "partial",
   "theorems": [
    "Verif.LangText.synonyms_exact",
    "Verif.LangText.synonym_lost"
   ],
   "note": "Exactly the synonyms of at most eighty characters are written."
  },
  {
   "property": "C54",
   "status": "partial",
   "theorems": [
    "Verif.Xml.tails_lost"
   ],
   "note": "False of the code, for every tree."
  },
  {
   "property": "C55",
   "status": "partial",
   "theorems": [
    "Verif.Mapping.ecs2_paths_occur",
    "Verif.Mapping.ilcdSelf_paths_occur",
    "Verif.Mapping.ilcd_paths_occur_partial",
    "Verif.Mapping.misspelt_mapped"
   ],
   "note": "False for four paths of ILCD to EcoSpold2, exactly those; true for all others."
  },
  {
   "property": "C56",
   "status": "partial",
   "theorems": [
    "Verif.Mapping.ecs2_fields_covered_partial",
    "Verif.Mapping.ilcd_fields_covered_partial",
    "Verif.Mapping.ilcdSelf_fields_covered",
    "Verif.Mapping.ecs2_unseen",
    "Verif.Mapping.ilcd_unseen",
    "Verif.Mapping.unseen_occur"
   ],
   "note": "Exactly the listed fields are never handed to a mapping; documents with and without them are read alike."
  },
  {
   "property": "C57",
   "status": "partial",
   "theorems": [
    "Verif.Driver.mark_of_other"
   ],
   "note": "False of the code; the behaviour is proved."
  },
  {
   "property": "C58",
   "status": "partial",
   "theorems": [
    "Verif.Driver.settings_ignored"
   ],
   "note": "False of the code while the version stays the same, which is proved."
  },
  {
   "property": "C59",
   "status": "partial",
   "theorems": [
    "Verif.Driver.information_leaks"
   ],
   "note": "False of the code, which is proved."
  },
  {
   "property": "C60",
   "status": "partial",
   "theorems": [
    "Verif.Options.pairs_without_mapping",
    "Verif.Options.versions_converted"
   ],
   "note": "False for six of nine pairs; the exact list is proved."
  },
  {
   "property": "C61",
   "status": "proved",
   "theorems": [
    "Verif.Driver.zips_outputs"
   ],
   "note": ""
  },
  {
   "property": "C62",
   "status": "partial",
   "theorems": [
    "Verif.EcsFlows.functional_unit"
   ],
   "note": "The text is present exactly for an odd number of reference products, so the property fails for three."
  },
  {
   "property": "C63",
   "status": "partial",
   "theorems": [
    "Verif.EcsFlows.no_shares"
   ],
   "note": "False of the code, for every data set."
  },
  {
   "property": "C64",
   "status": "partial",
   "theorems": [
    "Verif.EcsFlows.merge_stale_bounds",
    "Verif.IlcdFlows.merge_stale_uncertainty",
    "Verif.IlcdFlows.merge_stale_example",
    "Verif.IlcdFlows.merge_normal_mean"
   ],
   "note": "False of the code, for all lognormal exchanges."
  },
  {
   "property": "C65",
   "status": "partial",
   "theorems": [
    "Verif.EcsVars.values_kept_partial",
    "Verif.EcsVars.same_name_first_value",
    "Verif.EcsVars.elementary_formula_unscaled",
    "Verif.EcsVars.conversion_link_lost"
   ],
   "note": "Proved for amounts with distinct names; the three exceptions are proved too."
  },
  {
   "property": "C66",
   "status": "partial",
   "theorems": [
    "Verif.EcsVars.refs_replaced",
    "Verif.EcsVars.units_replaced",
    "Verif.EcsVars.ref_unknown",
    "Verif.EcsVars.ref_none"
   ],
   "note": "Proved for all formulas whose references are known; the text None for missing production volumes is a witness of the failure."
  },
  {
   "property": "C67",
   "status": "partial",
   "theorems": [
    "Verif.EcsVars.plain_formula_kept",
    "Verif.EcsVars.percent_replaced",
    "Verif.EcsVars.decimalComma_iff",
    "Verif.EcsVars.commas_all_replaced",
    "Verif.EcsVars.arguments_joined",
    "Verif.EcsVars.formula_written"
   ],
   "note": "Proved: formulas without percent signs and decimal commas are kept and percent signs replaced; false for a decimal comma in a formula with several arguments, since every comma is replaced, which is proved with the exact condition (`decimalComma_iff`)."
  },
  {
   "property": "C68",
   "status": "partial",
   "theorems": [
    "Verif.Comments.general_restored_partial",
    "Verif.Comments.written_paragraphs",
    "Verif.Comments.inheritance_lost",
    "Verif.Comments.tech_restored",
    "Verif.Comments.start_alone",
    "Verif.Comments.validity_restored",
    "Verif.Comments.energy_restored",
    "Verif.Comments.energy_undefined",
    "Verif.Comments.energy_chosen_iff",
    "Verif.Comments.uuidMatch_iff",
    "Verif.Comments.unknown_codes"
   ],
   "note": "Proved for all comments without the marks; false for the inheritance of data sets with a parent and for undefined energy values, both proved."
  },
  {
   "property": "C69",
   "status": "partial",
   "theorems": [
    "Verif.Comments.comment_fails_iff",
    "Verif.Comments.energy_comment_fails",
    "Verif.Comments.validity_comment_fails",
    "Verif.Comments.removed_lines",
    "Verif.Comments.left_unique",
    "Verif.Comments.remark_lost",
    "Verif.Comments.unmarked_kept"
   ],
   "note": "False of the code; the exact condition of failure and the exact text left are proved. Comments without marks are kept."
  },
  {
   "property": "C70",
   "status": "partial",
   "theorems": [
    "Verif.Comments.general_restored_partial",
    "Verif.Comments.tags_lost"
   ],
   "note": "True for at most one tag; false for more, which is proved."
  },
  {
   "property": "C71",
   "status": "partial",
   "theorems": [
    "Verif.Comments.system_model_restored",
    "Verif.Comments.system_model_known_iff",
    "Verif.Comments.system_model_id_shared",
    "Verif.Comments.modelMatch_iff",
    "Verif.Comments.deviation_text"
   ],
   "note": "Restored for all names of the table; other names stop the conversion; exactly the names of the table are accepted."
  },
  {
   "property": "C72",
   "status": "partial",
   "theorems": [
    "Verif.IlcdFlows.direction_kept_partial",
    "Verif.IlcdFlows.reference_becomes_output",
    "Verif.IlcdFlows.waste_becomes_output",
    "Verif.IlcdFlows.group_codes"
   ],
   "note": "Proved for all exchanges but the reference flows, for which it fails (proved)."
  },
  {
   "property": "C73",
   "status": "partial",
   "theorems": [
    "Verif.IlcdFlows.unit_dimension_partial",
    "Verif.IlcdFlows.unit_id_other",
    "Verif.IlcdFlows.exchange_amounts",
    "Verif.IlcdFlows.unit_name_joined_partial"
   ],
   "note": "Products have name and identifier from the same entry; elementary exchanges only the same dimension (witness)."
  },
  {
   "property": "C74",
   "status": "partial",
   "theorems": [
    "Verif.IlcdFlows.merge_order_matters",
    "Verif.IlcdFlows.merge_keeps_first",
    "Verif.IlcdFlows.merge_total",
    "Verif.IlcdFlows.merge_variance"
   ],
   "note": "False of the code (witness); what does not depend on the order is the total in base units."
  },
  {
   "property": "C75",
   "status": "partial",
   "theorems": [
    "Verif.EcsProps.flow_properties_iff",
    "Verif.EcsProps.total_per_unit",
    "Verif.EcsProps.total_per_dry_mass",
    "Verif.EcsProps.dry_mass_needed",
    "Verif.EcsProps.concentration_depends_on_amount",
    "Verif.EcsProps.water_lost",
    "Verif.EcsProps.convert_succeeds",
    "Verif.EcsProps.ex_convert"
   ],
   "note": "Exact description of the flow properties written; totals are kept for properties per unit and per dry mass. It fails for concentrations, for contents without dry mass and for water (proved)."
  },
  {
   "property": "C76",
   "status": "proved",
   "theorems": [
    "Verif.EcsProps.numbers_distinct"
   ],
   "note": "All lists of properties."
  },
  {
   "property": "C77",
   "status": "partial",
   "theorems": [
    "Verif.EcsProps.same_flow_property_twice",
    "Verif.EcsProps.flow_properties_iff"
   ],
   "note": "False of the code (witness); flow_properties_iff says which values there are."
  },
  {
   "property": "C78",
   "status": "proved",
   "theorems": [
    "Verif.IlcdProps.properties_iff",
    "Verif.IlcdProps.readProps_ok_iff",
    "Verif.IlcdProps.convertProps_succeeds",
    "Verif.IlcdProps.exchange_ok_iff",
    "Verif.IlcdProps.contents_lost",
    "Verif.IlcdProps.variants_unused",
    "Verif.IlcdProps.ex_convert"
   ],
   "note": "Both directions, with the conditions under which the conversion stops."
  },
  {
   "property": "C79",
   "status": "partial",
   "theorems": [
    "Verif.IlcdProps.master_keeps_ilcd",
    "Verif.IlcdProps.ilcd_ids_foreign",
    "Verif.IlcdProps.ex_master",
    "Verif.IlcdProps.master_rows"
   ],
   "note": "False of the code with the option; the ids of ILCD are in no table of EcoSpold2 (whole tables decided)."
  },
  {
   "property": "C80",
   "status": "partial",
   "theorems": [
    "Verif.IlcdProps.allocations_kept",
    "Verif.IlcdProps.allocation_single_stops",
    "Verif.IlcdProps.ex_allocation_collapse",
    "Verif.IlcdProps.master_rows"
   ],
   "note": "Proved for two or more allocations to co-products with distinct names; the other cases fail (proved)."
  },
  {
   "property": "C81",
   "status": "partial",
   "theorems": [
    "Verif.PropsRound.content_round_trip",
    "Verif.PropsRound.heating_round_trip",
    "Verif.PropsRound.contents_need_water"
   ],
   "note": "Contents with a water content other than 1 and heating values come back; without a water content no content comes back (proved)."
  },
  {
   "property": "C82",
   "status": "partial",
   "theorems": [
    "Verif.Session.success_clean",
    "Verif.Session.clean_iff",
    "Verif.Session.options_off",
    "Verif.Session.independent",
    "Verif.Session.fails_forever",
    "Verif.Session.disturbs_poisons",
    "Verif.Session.witness_disturbed",
    "Verif.Session.leaves_iff",
    "Verif.Session.left_leak",
    "Verif.Session.bad_variable_forever",
    "Verif.Session.success_clean_ilcd",
    "Verif.Session.witness_disturbed_ilcd"
   ],
   "note": "False of the code; the failures that leave something behind are characterised exactly for both directions, conversions without them are independent, and what follows one that does is proved for all later conversions. Of the exchanges and variables only what decides about errors is modelled."
  },
  {
   "property": "C83",
   "status": "partial",
   "theorems": [
    "Verif.Session.error_kept",
    "Verif.Session.error_hidden",
    "Verif.Session.file_error_iff",
    "Verif.Session.file_error",
    "Verif.Session.hidden_late",
    "Verif.Session.kept_early",
    "Verif.Session.model_error"
   ],
   "note": "False of the code; from EcoSpold2 exactly when something is left behind, from ILCD always when the file has been read."
  },
  {
   "property": "C84",
   "status": "partial",
   "theorems": [
    "Verif.Citations.lastCore_iff",
    "Verif.Citations.lastCore_none",
    "Verif.Citations.lastLine_spec",
    "Verif.Citations.cite_paged",
    "Verif.Citations.cite_year",
    "Verif.Citations.cite_none",
    "Verif.Citations.cite_fails",
    "Verif.Citations.pages_round_trip",
    "Verif.Citations.year_round_trip",
    "Verif.Citations.author_round_trip",
    "Verif.Citations.author_cut",
    "Verif.Citations.author_never",
    "Verif.Citations.witness_citations",
    "Verif.Citations.digits_ascii"
   ],
   "note": "What is read from a name is described exactly; names that the program writes itself are read back. False of the code for names written by others without a sign before the year (the last letter of the author is lost) and for a year in the title (witnesses)."
  },
  {
   "property": "C85",
   "status": "partial",
   "theorems": [
    "Verif.Refs.lastSegment_spec",
    "Verif.Refs.found_iff",
    "Verif.Refs.none_iff",
    "Verif.Refs.other_version",
    "Verif.Refs.order_matters",
    "Verif.Refs.own_files_found",
    "Verif.Refs.own_flows_found"
   ],
   "note": "The file taken is described exactly; own files are found in whatever order they are listed. False for files of others (other_version, order_matters)."
  },
  {
   "property": "C86",
   "status": "partial",
   "theorems": [
    "Verif.Refs.short_stops",
    "Verif.Refs.documentation_stops",
    "Verif.Refs.citation_stops",
    "Verif.Refs.picture_stops",
    "Verif.Refs.image_taken",
    "Verif.Refs.icon_taken",
    "Verif.Refs.dropped",
    "Verif.Refs.own_documents_stop",
    "Verif.Refs.source_name_stops"
   ],
   "note": "False of the code; for each place and name what happens is proved."
  },
  {
   "property": "C87",
   "status": "partial",
   "theorems": [
    "Verif.Refs.exchange_sources",
    "Verif.Refs.publication_sources",
    "Verif.Refs.two_pages_stop",
    "Verif.Refs.exchange_mixed",
    "Verif.Refs.pages_of_first",
    "Verif.Refs.master_sources"
   ],
   "note": "False of the code; what is set is described exactly for every list of sources."
  },
  {
   "property": "C88",
   "status": "partial",
   "theorems": [
    "Verif.Refs.contacts_exact",
    "Verif.Refs.kind_of_first",
    "Verif.Refs.missing_contact_dangles",
    "Verif.Refs.contact_short_stops",
    "Verif.Refs.contact_name_stops"
   ],
   "note": "One entry at most is proved; that there is one is false of the code, and the exact conditions are proved."
  },
  {
   "property": "C89",
   "status": "partial",
   "theorems": [
    "Verif.Reviews.there_and_back",
    "Verif.Reviews.round_trip",
    "Verif.Reviews.version_kept_iff",
    "Verif.Reviews.details_back",
    "Verif.Reviews.no_details_back",
    "Verif.Reviews.date_time_lost",
    "Verif.Reviews.readVersion_text",
    "Verif.Reviews.versionMatch_iff",
    "Verif.Reviews.dateMatch_iff",
    "Verif.Reviews.versions_given",
    "Verif.Reviews.texts_kept",
    "Verif.Reviews.wrong_date_stops"
   ],
   "note": "False of the code; exactly what comes back is proved for every review, and when the version is kept."
  },
  {
   "property": "C90",
   "status": "partial",
   "theorems": [
    "Verif.Reviews.kind_some",
    "Verif.Reviews.kind_never_external",
    "Verif.Reviews.kind_none_iff",
    "Verif.Reviews.external_is_internal",
    "Verif.Reviews.left_out_iff",
    "Verif.Reviews.find_zero_iff"
   ],
   "note": "False of the code; the kind that is written is determined for every address."
  },
  {
   "property": "C91",
   "status": "partial",
   "theorems": [
    "Verif.Reviews.several_reviewers",
    "Verif.Reviews.reviewers_all",
    "Verif.Reviews.long_names_stop",
    "Verif.Reviews.unnamed_reviewer_stops",
    "Verif.Reviews.no_reviewer_lost",
    "Verif.Reviews.reviewerName_iff"
   ],
   "note": "The names are proved to be kept; the rest is false of the code and what happens is proved."
  },
  {
   "property": "C92",
   "status": "partial",
   "theorems": [
    "Verif.Admin.access_written_iff",
    "Verif.Admin.access_unstated",
    "Verif.Admin.access_back",
    "Verif.Admin.access_kept_iff",
    "Verif.Admin.restricted_stops",
    "Verif.Admin.exclusive_stops",
    "Verif.Admin.license_decides",
    "Verif.Admin.text_decides",
    "Verif.Admin.nothing_said"
   ],
   "note": "False of the code; what becomes of every code and of every document is proved."
  },
  {
   "property": "C93",
   "status": "proved",
   "theorems": [
    "Verif.Admin.years_written",
    "Verif.Admin.period_back",
    "Verif.Admin.period_not_shortened",
    "Verif.Admin.period_kept_iff"
   ],
   "note": "For all days; how a date is read from its text is not modelled."
  },
  {
   "property": "C94",
   "status": "partial",
   "theorems": [
    "Verif.IlcdList.target_saved",
    "Verif.IlcdList.flow_saved",
    "Verif.IlcdList.all_flows_saved",
    "Verif.IlcdList.saved_grows",
    "Verif.IlcdList.no_match_property_missing",
    "Verif.IlcdList.unmapped_file",
    "Verif.IlcdList.unmapped_others_missing",
    "Verif.IlcdList.all_exact"
   ],
   "note": "The flows of all exchanges are proved to be saved, with flow property and unit group for converted ones; false for the flow properties of the others (no_match_property_missing, unmapped_others_missing). Whether the target file itself refers to the files saved depends on the default files, which are not modelled."
  },
  {
   "property": "C95",
   "status": "partial",
   "theorems": [
    "Verif.IlcdList.variable_exact",
    "Verif.IlcdList.variable_mean_right_iff",
    "Verif.IlcdList.variable_renamed",
    "Verif.IlcdList.variable_used_twice",
    "Verif.IlcdList.factor_added",
    "Verif.IlcdList.factor_identifier_iff",
    "Verif.IlcdList.no_formula_stops",
    "Verif.IlcdList.parameter_renamed"
   ],
   "note": "False of the code; what becomes of the variables is proved exactly."
  },
  {
   "property": "C96",
   "status": "partial",
   "theorems": [
    "Verif.IlcdList.no_result_stops",
    "Verif.IlcdList.no_result_stops_all",
    "Verif.IlcdList.one_stops_all",
    "Verif.IlcdList.no_file_stops",
    "Verif.IlcdList.single_unit_stops",
    "Verif.IlcdList.texts_stop",
    "Verif.IlcdList.unknown_unit_stops",
    "Verif.IlcdList.no_group"
   ],
   "note": "False of the code; the conditions under which the conversion stops are proved."
  },
  {
   "property": "C97",
   "status": "proved",
   "theorems": [
    "Verif.PlaceIndex.place_iff",
    "Verif.PlaceIndex.entry_iff",
    "Verif.PlaceIndex.section_kept",
    "Verif.PlaceIndex.texts_placed",
    "Verif.PlaceIndex.texts_written"
   ],
   "note": "place_iff: exact result for every value; texts_written: composition with the reading of XML and with the text fields (texts that are not blank, languages allowed)."
  },
  {
   "property": "C98",
   "status": "partial",
   "theorems": [
    "Verif.PlaceIndex.place_elem_ok",
    "Verif.PlaceIndex.entry_elem_ok",
    "Verif.PlaceIndex.two_codes_stop",
    "Verif.PlaceIndex.no_language_refused",
    "Verif.PlaceIndex.list_stops"
   ],
   "note": "False of the code; place_elem_ok gives exactly the sections that can be taken."
  },
  {
   "property": "C99",
   "status": "partial",
   "theorems": [
    "Verif.TextImage.variables_filled",
    "Verif.TextImage.no_place_kept",
    "Verif.TextImage.process_iff",
    "Verif.TextImage.comment_converted_partial",
    "Verif.TextImage.order_matters",
    "Verif.TextImage.empty_variable_stops",
    "Verif.TextImage.blank_text"
   ],
   "note": "Proved for values without opening braces and names without braces; false for values with places (order_matters). process_iff is exact for every comment."
  },
  {
   "property": "C175",
   "status": "partial",
   "theorems": [
    "Verif.XmlWrite.written_readable_iff",
    "Verif.XmlWrite.written_readable_partial",
    "Verif.XmlWrite.written_unreadable",
    "Verif.XmlWrite.reference_iff",
    "Verif.XmlWrite.reference_not_ended",
    "Verif.XmlWrite.document_ends"
   ],
   "note": "False for texts with control characters (`written_unreadable`); `written_readable_iff` is the exact condition."
  },
  {
   "property": "C176",
   "status": "partial",
   "theorems": [
    "Verif.XmlWrite.written_read_back",
    "Verif.XmlWrite.written_delivered",
    "Verif.XmlWrite.text_back_iff",
    "Verif.XmlWrite.language_back",
    "Verif.XmlWrite.written_lost"
   ],
   "note": "Proved for all dictionaries with `back` as the value read. A text is unchanged exactly when it shows something and has no carriage return (`text_back_iff`); `written_lost` has the other cases."
  },
  {
   "property": "C177",
   "status": "proved",
   "theorems": [
    "Verif.XmlWrite.attribute_back",
    "Verif.XmlWrite.written_read_back"
   ],
   "note": "For dictionaries that stand for an element; composed with reading by C176."
  },
  {
   "property": "C178",
   "status": "proved",
   "theorems": [
    "Verif.XmlWrite.structure_kept",
    "Verif.XmlWrite.structure_kept_iff"
   ],
   "note": "Texts with characters that XML does not allow make the file unreadable and so do not change it either (`structure_kept_iff`)."
  },
  {
   "property": "C179",
   "status": "proved",
   "theorems": [
    "Verif.XmlWrite.ilcd_file",
    "Verif.XmlWrite.ecs2_file",
    "Verif.XmlWrite.fields_fit",
    "Verif.XmlWrite.olca_undeclared"
   ],
   "note": "Readable up to the characters of the texts (C175). The values of fields are numbers, texts, entries with language, index or name, and lists of them (`fields_fit`). Classes of openLCA need the structure that declares their prefix (`olca_undeclared`)."
  },
  {
   "property": "C180",
   "status": "partial",
   "theorems": [
    "Verif.ExchComments.tags_named_partial",
    "Verif.ExchComments.tags_named_iff",
    "Verif.ExchComments.tag_spelled",
    "Verif.ExchComments.no_tags",
    "Verif.ExchComments.blank_tag_stops",
    "Verif.ExchComments.tag_not_named"
   ],
   "note": "False for a single tag: it is spelled letter by letter (`tag_spelled`, `tag_not_named`). `tags_named_iff` has the exact condition. A blank tag among several stops the conversion (`blank_tag_stops`)."
  },
  {
   "property": "C181",
   "status": "proved",
   "theorems": [
    "Verif.ExchComments.exchange_says",
    "Verif.ExchComments.exchange_ok_iff",
    "Verif.ExchComments.exchange_entries",
    "Verif.ExchComments.entries_paragraphs",
    "Verif.ExchComments.unc_range"
   ],
   "note": "For running numbers from 1000 on, texts of the uncertainty with indices from 0 to 999 (those of `UncText` are, `unc_range`), and texts that keep the limit of 500 characters or a run that ignores it; texts that are longer are split (C05, C06)."
  },
  {
   "property": "C182",
   "status": "partial",
   "theorems": [
    "Verif.ExchComments.ilcd_says_partial",
    "Verif.ExchComments.ilcd_ok_iff",
    "Verif.ExchComments.empty_info_stops",
    "Verif.ExchComments.empty_location_stops",
    "Verif.ExchComments.comment_kept",
    "Verif.ExchComments.comment_back"
   ],
   "note": "False if one of the four elements is present and empty: the conversion stops with a KeyError (`empty_info_stops`, `empty_location_stops`); `ilcd_ok_iff` says that this is the only case. `comment_back` is for comments that keep the limit of 500 characters."
  },
  {
   "property": "C183",
   "status": "partial",
   "theorems": [
    "Verif.ExchComments.merged_texts",
    "Verif.ExchComments.merged_says",
    "Verif.ExchComments.uncertainty_repeated",
    "Verif.ExchComments.merged_language_lost",
    "Verif.ExchComments.merged_heading_twice"
   ],
   "note": "All the texts are kept, but those of the other exchanges are said in English whatever their language, joined into one paragraph (`merged_texts`, `merged_language_lost`), and the texts of the uncertainty of the first are said once more for each exchange added (`uncertainty_repeated`, `merged_heading_twice`)."
  },
  {
   "property": "C184",
   "status": "proved",
   "theorems": [
    "Verif.ReviewTexts.details_stated",
    "Verif.ReviewTexts.other_said",
    "Verif.ReviewTexts.indicator_value_needed",
    "Verif.ReviewTexts.review_written"
   ],
   "note": "For scopes, methods and indicators with the attributes that the schema demands, two-letter languages, texts of details without the lines of version and date (those are in C89) and texts that keep the limit of 32000 characters or a run that ignores it. An indicator without value stops the conversion (`indicator_value_needed`). The entries are written in the order of their numbers as texts, so that details with numbers from 1000 to 1999 come before the type (`review_written`); their indices have the intended order."
  },
  {
   "property": "C185",
   "status": "proved",
   "theorems": [
    "Verif.ReviewTexts.scopes_readable",
    "Verif.ReviewTexts.indicators_readable",
    "Verif.ReviewTexts.format_names",
    "Verif.ReviewTexts.scopes_ambiguous"
   ],
   "note": "For names without line feeds, names of scopes that do not begin with a tab and names of indicators without colons; all the names of the format are such (`format_names`). Without the condition they are not told apart (`scopes_ambiguous`)."
  },
  {
   "property": "C186",
   "status": "proved",
   "theorems": [
    "Verif.ReviewDetails.details_said",
    "Verif.ReviewDetails.paragraphs_exist",
    "Verif.ReviewDetails.review_written"
   ],
   "note": "For texts with an index that is not negative, a language of the list and visible text, and for texts and variables without stray braces as in C99. Texts that become blank are left out. Images are in C100."
  },
  {
   "property": "C187",
   "status": "partial",
   "theorems": [
    "Verif.ReviewDetails.details_back",
    "Verif.ReviewDetails.back_wanted_iff"
   ],
   "note": "True exactly for reviews with details in English (`back_wanted_iff`). Without details in English the line on the version comes back as a detail (constructor `version` of `Back`; the version itself is lost then, C89). For dates of digits, blanks and hyphens, and details without the marks of date and version. Texts with different indices come back as one text, and so under one index."
  },
  {
   "property": "C188",
   "status": "partial",
   "theorems": [
    "Verif.ReviewDetails.other_stops",
    "Verif.ReviewDetails.other_said_partial"
   ],
   "note": "False for two or more languages, which the schema allows: the conversion stops with an AttributeError (`other_stops`). True for at most one (`other_said_partial`)."
  },
  {
   "property": "C189",
   "status": "partial",
   "theorems": [
    "Verif.LeftOut.goes_on_partial",
    "Verif.LeftOut.registration_number_stops",
    "Verif.LeftOut.lists_kept",
    "Verif.LeftOut.texts_kept",
    "Verif.LeftOut.number_kept",
    "Verif.LeftOut.never_kept",
    "Verif.LeftOut.earlier_file_stays",
    "Verif.LeftOut.list_given"
   ],
   "note": "The exact condition is proved (`goes_on_partial`). False for the registration number, which the format writes as a mere text: it always stops the conversion (`registration_number_stops`). What is given as a list is all kept, but behind the data of the files before (`earlier_file_stays`); of a text the last one. Coordinates, commissioner and access restrictions never reach the record (`never_kept`)."
  },
  {
   "property": "C190",
   "status": "partial",
   "theorems": [
    "Verif.Carried.converts_iff",
    "Verif.Carried.sources_carried",
    "Verif.Carried.documents_lost",
    "Verif.Carried.flows_saved_only",
    "Verif.Carried.same_for_more",
    "Verif.Carried.no_sources_stops",
    "Verif.Carried.saved_folders",
    "Verif.Carried.all_saved_folders",
    "Verif.Carried.converted_archive"
   ],
   "note": "True of sources and contacts, which are kept exactly, a file of the archive coming before one of the package with the same name (`sources_carried`, `converted_archive`). False of archives without one of the two folders or with a folder in them, which are refused (`converts_iff`, `no_sources_stops`), and of documents, of which none is kept (`documents_lost`). Flows, flow properties and unit groups are there if and only if saved for an exchange (`flows_saved_only`)."
  },
  {
   "property": "C191",
   "status": "partial",
   "theorems": [
    "Verif.ListSession.own_parameters",
    "Verif.ListSession.written_empties",
    "Verif.ListSession.alone_partial",
    "Verif.ListSession.failure_leaves",
    "Verif.ListSession.refused_leaves",
    "Verif.ListSession.left_written",
    "Verif.ListSession.alone_iff",
    "Verif.ListSession.refused_forever",
    "Verif.ListSession.stranger_written",
    "Verif.ListSession.written_iff",
    "Verif.ListSession.exchange_leaves"
   ],
   "note": "True as long as every earlier call has succeeded (alone_partial), and for every data set with an element for mathematical relations (own_parameters). False after an error behind this element (failure_leaves, refused_leaves): the next data set without the element is written with the parameters of the one that failed (left_written, witness stranger_written), and is converted as alone exactly if none are left (alone_iff). A parameter that the structure refuses stops all later calls whose data sets have no such element (refused_forever)."
  },
  {
   "property": "C192",
   "status": "partial",
   "theorems": [
    "Verif.ListSession.error_hidden",
    "Verif.ListSession.start_reported",
    "Verif.ListSession.reported_iff",
    "Verif.Driver.no_delete_hides"
   ],
   "note": "False of the code: once there is a mapping, every error is reported as the AttributeError of the missing method (error_hidden), so the error is the one that occurred exactly if it occurred before or was an AttributeError (reported_iff). Errors of the start are reported (start_reported)."
  },
  {
   "property": "C193",
   "status": "partial",
   "theorems": [
    "Verif.Assign.ecs2_never_filled_iff",
    "Verif.Assign.ilcd_never_filled_iff",
    "Verif.Assign.classification_lost",
    "Verif.Assign.ilcd_lost"
   ],
   "note": "False of the code: the listed fields (`ecs2Never`, `ilcdNever`) are never filled, and they are exactly those (`ecs2_never_filled_iff`, `ilcd_never_filled_iff`). The classification of a process is among them, since its conversion has been switched off (`classification_lost`), as are the coordinates, the compliance and the data sources of an ILCD process (`ilcd_lost`). Fields inside exchanges and other repeated elements are values of the model and are not considered."
  },
  {
   "property": "C194",
   "status": "proved",
   "theorems": [
    "Verif.CopyFile.bytes_kept",
    "Verif.CopyFile.copied",
    "Verif.CopyFile.missing_default",
    "Verif.CopyFile.copied_again",
    "Verif.CopyFile.copied_onto_itself"
   ],
   "note": "Besides the property: if the archive is made in the folder of the default files itself, the default file is emptied, because the target is opened before the source is read (`copied_onto_itself`)."
  },
  {
   "property": "C195",
   "status": "partial",
   "theorems": [
    "Verif.CopyFile.all_or_nothing_partial",
    "Verif.CopyFile.complete_all",
    "Verif.CopyFile.failure_undone",
    "Verif.CopyFile.present_kept",
    "Verif.CopyFile.killed_stays",
    "Verif.CopyFile.fetched_not_found"
   ],
   "note": "Proved if no call ends with the process (`all_or_nothing_partial`). False otherwise: a process that ends during the transfer leaves a folder with some of the files, and since a folder that is there is taken for complete, no later call adds the others (`killed_stays`). The second part is false: the whole folder of default files is fetched into the folder of the flows, so that each flow arrives one folder lower than copy_file looks for it (`fetched_not_found`). The call is commented out in `__init__.py`, so it only matters to a user who calls it."
  },
  {
   "property": "C196",
   "status": "partial",
   "theorems": [
    "Verif.Dates.date_read",
    "Verif.Dates.read_is_date",
    "Verif.Dates.read_form",
    "Verif.Dates.zone_stops",
    "Verif.Dates.time_read_iff",
    "Verif.Dates.time_zone_stops",
    "Verif.Dates.period_written",
    "Verif.Dates.time_of_day_iff",
    "Verif.Dates.letters_either_case",
    "Verif.Dates.short_date_read"
   ],
   "note": "True of bare dates (date_read, period_written) and of times of UTC with up to six decimals (time_read_iff, exact). False for dates and times with another zone (zone_stops, time_zone_stops). Whatever is read is a date of the calendar (read_is_date)."
  }
 ]
}
