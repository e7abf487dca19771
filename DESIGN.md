# Design of the formal model of Lavoisier

The model is written in Lean 4 (4.33.0, with Mathlib) under `lean/Verif`:

- `Verif/Py.lean`: texts as lists of characters, Python exceptions as values (`Py α = Except PyErr α`), and the
  string functions of Python that the code uses.
- `Verif/Model/*.lean`: the model, function by function. Every definition cites the file and lines it models; the
  head of each file says what it leaves out.
- `Verif/Spec/*.lean`: what the properties mean, in terms of texts, lists, sets, trees and measures, without the
  functions of the model.
- `Verif/Lemmas/*.lean`: auxiliary lemmas.
- `Verif/Props/*.lean`: the theorems of the properties, each with an `example` that a concrete case meets its
  hypotheses.

`properties.jsonl` lists the properties, `MANIFEST.json` the theorems that carry each of them, and
`seeded/LOG.jsonl` the wrong programs tried against the theorems (a definition of the model is changed in a copy,
and the theorems that fail are recorded; where none failed, the statements were strengthened or the entry says why
the change has no effect that the property speaks of).

## How the code is turned into Lean

- A function becomes a total function, branch by branch. An exception is a value; where an exception leaves an
  object half changed and the object is used afterwards, the model returns the changed state with the exception.
- A class with state becomes a record and step functions; histories are lists of calls, and statements about
  histories are proved by induction over the list.
- Loops are structural recursions over their lists. A `while` loop that searches (file names, identifiers,
  versions) gets the number of taken candidates plus one as fuel, and a theorem says that this is always enough.
- Regular expressions are either a deep embedding with the usual language semantics and a proved matcher
  (identifiers, codes, numbers), or, where the pattern is a fixed mark followed by the rest of a line, a direct
  function with a theorem that says what it finds.
- Numbers of amounts are real numbers, or elements of any field where only the field operations matter.
  Distributions are measures of Mathlib, so that "the written parameters describe the converted distribution" is a
  statement about push-forwards and not about formulas.
- Tables (`VALID` of both formats, code tables, units, keys of the mappings) are transcribed by scripts from the
  source text; statements over a whole table are decided by the kernel (`decide +kernel`).

## Trusted base

- The kernel of Lean 4.33.0 and the definitions of Mathlib used in the statements.
- The axioms `propext`, `Classical.choice` and `Quot.sound`. No other axiom, no `sorry`, no `native_decide`, no
  `bv_decide`.
- That the model says what the Python code does. It was written by reading; nothing was run. The points where it
  leaves something out are listed below and in the heads of the model files.
- That the external libraries behave as the model takes them to. They enter as parameters about which nothing is
  assumed unless the theorem says so: the AES block function (any function), MD5 in `uuid.uuid3` (any function, or
  an injective one where a theorem says so), `etree.iterparse` (the events of
  a tree), the file system (finite sets of names, contents as values), pint (a factor per pair of units),
  OpenTURNS (adds the variances of two normal or two lognormal distributions), `float` and `str` of numbers (any
  function).
- Python semantics of dictionaries (insertion order), stable sorting, `str.split`, `str.strip`, `re.match` being
  anchored at the beginning only, class attributes shared by all objects, and name mangling.

## Axioms of the theorems of the manifest

Printed by `#print axioms` for the 1048 theorems named in `MANIFEST.json`. No axiom besides the three of Lean occurs.

- **no axioms** (30): `Assign.toEcs2_keys`, `Assign.toIlcd_keys`, `Classes.simple_listed_partial`, `Comments.energy_undefined`, `Comments.remark_lost`, `Comments.start_alone`, `Comments.system_model_id_shared`, `IlcdProps.energy_without_values`, `IlcdProps.ilcd_ids_foreign`, `Naming.listed_valid`, `Params.bracketed_comment_is_unit`, `Params.composed_unit_changed`, `Params.conversion_names_collide`, `Params.dimensionless_lost`, `Params.no_unit_no_name`, `RefUnits.known_keys`, `ReviewTexts.scopes_ambiguous`, `Sentences.abbreviations_kept`, `Sentences.longer_words_open_nothing`, `Sentences.marks_lost`, `Sentences.openers_start`, `Sentences.other_points_cut`, `Sentences.quote_moved`, `Session.witness_disturbed_ilcd`, `Shapes.needs_language`, `Tables.models_identified`, `UncText.scores_swapped`, `UnitNames.correct_twice_fails`, `Uuid.lavKey_bytes`, `Validators.bool_written`
- **`Quot.sound`** (1): `Settings.option_names`
- **`propext`** (122): `Admin.status_written_iff`, `Admin.version_unstated`, `Admin.version_without_point`, `Citations.witness_citations`, `Classes.byProduct_last`, `Classes.file_found_iff`, `Classes.priority_not_first`, `Classes.process_class_exceptions`, `Classes.value_unused`, `Comments.energy_restored`, `Comments.left_unique`, `ConvLog.earlier_listed_witness`, `CopyFile.present_kept`, `DotDict.absent_group_is_empty`, `DotDict.failed_assignment_leaves_values`, `DotDict.failed_assignment_prefix`, `DotDict.failed_assignment_unchanged_partial`, `DotDict.reading_breaks_writing`, `DotDict.reading_present_unchanged_partial`, `DotDict.second_value_rejected`, `DotDict.sign_left_out`, `DotDict.unknown_field_rejected`, `DotDict.wrong_class_accepted`, `Driver.failure_sticks`, `Driver.failure_sticks_example`, `Driver.no_delete_hides`, `EcsVars.arguments_joined`, `ExchComments.merged_heading_twice`, `ExchComments.merged_language_lost`, `FileNames.files_stay`, `FlowFiles.database_overwritten`, `FlowFiles.shared_id_dangling`, `IlcdVars.formula_renamed_twice`, `IlcdVars.new_name_taken`, `IlcdVars.original_lost`, `IlcdVars.original_reached`, `IlcdVars.rename_inside`, `Included.back_iff`, `Inputs.deliver_all`, `Inputs.deliver_stops`, `LangText.classification_cut`, `LangText.name_cut`, `LangText.one_language_two_entries`, `LangText.tenth_before_second`, `LangText.written_name_twice`, `MapFile.missing_table`, `Options.pairs_without_mapping`, `Options.versions_converted`, `Params.converted_name_stops`, `Params.nameless_lost`, `Products.link_and_cas_are_attributes`, `Products.volume_uncertainty_lost`, `Products.volume_uncertainty_not_read`, `RefUnits.stale_not_copied`, `RefUnits.unit_error`, `RefUnits.unit_name_wrong`, `Refs.contact_short_stops`, `Refs.dropped`, `Refs.exchange_mixed`, `Refs.order_matters`, `Refs.short_stops`, `ReviewDetails.review_written`, `ReviewTexts.format_names`, `ReviewTexts.review_written`, `Reviews.left_out_iff`, `Reviews.version_kept_iff`, `RoundIlcd.property_kept_iff`, `Sentences.full_stop_lost`, `Session.model_error`, `Session.options_off`, `Session.success_clean`, `Session.success_clean_ilcd`, `Session.witness_disturbed`, `Settings.default_works`, `Settings.empty_mapping_unprintable`, `Settings.factory_known`, `Settings.factory_unknown`, `Settings.iterator_exchanged`, `Settings.manager_exchanged`, `Settings.read_back`, `Settings.rejected`, `Settings.rejected_no_effect`, `Settings.struct_exchanged`, `Settings.use_iff`, `Settings.version_iff`, `Shapes.second_language_stops`, `Tables.elementary_flow_property`, `Tables.flow_properties_agree_iff`, `Tables.flow_property_has_unit`, `Tables.groups_agree`, `Tables.licenses_kept_iff`, `Tables.model_ids`, `Tables.models_kept_iff`, `Tables.unit_without_flow_property`, `TextImage.blank_text`, `TextImage.seed_collision`, `UncText.comment_added`, `UncText.comment_added_written`, `UncText.comment_always`, `UncText.four_scores_stop`, `UncText.missing_variance_stops`, `UncText.other_back_false`, `UncText.other_incomplete_stops`, `UncText.scores_by_place`, `UncText.variance_sign`, `Validators.bool_exact`, `Validators.bool_written_reads_back`, `Validators.limit_ignored`, `Validators.limited_text`, `Validators.list_keeps_all`, `Validators.percent_nan_accepted`, `Validators.percent_of_bool`, `Validators.review_date_not_latest`, `Validators.review_date_order_dependent`, `Validators.south_pole_rejected`, `Validators.variable_name_limit`, `Xml.attribute_lost`, `Xml.tails_lost`, `XmlWrite.language_back`, `XmlWrite.olca_undeclared`, `XmlWrite.reference_not_ended`, `XmlWrite.written_lost`
- **`Quot.sound`, `propext`** (345): `Admin.access_unstated`, `Admin.access_written_iff`, `Admin.status_back`, `Admin.type_back`, `Admin.type_kept_iff`, `Admin.type_round`, `Admin.type_stops`, `Admin.unknown_stops`, `Archive.contact_there_iff`, `Archive.hydrogen_missing`, `Archive.owner_missing`, `Archive.process_leads`, `Archive.process_references`, `Archive.property_compliance_iff`, `Archive.property_there_iff`, `Archive.self_contained_iff`, `Archive.self_contained_partial`, `Archive.several_properties`, `Assign.classification_lost`, `Assign.ilcd_lost`, `Carried.converts_iff`, `Carried.documents_lost`, `Carried.flows_saved_only`, `Carried.no_sources_stops`, `Carried.same_for_more`, `Carried.sources_carried`, `Citations.author_cut`, `Citations.author_never`, `Citations.author_round_trip`, `Citations.cite_fails`, `Citations.cite_none`, `Citations.cite_paged`, `Citations.cite_year`, `Citations.lastCore_iff`, `Citations.lastCore_none`, `Citations.lastLine_spec`, `Citations.pages_round_trip`, `Citations.year_round_trip`, `Classes.class_by_name`, `Classes.class_too_deep`, `Classes.class_unknown`, `Classes.flow_converted_iff`, `Classes.flow_names_iff_partial`, `Classes.flow_order_partial`, `Classes.mapped_text_fits`, `Classes.process_class_iff_partial`, `Classes.process_order_partial`, `Classes.squeeze_eq`, `Classes.unknown_text_fits_iff`, `Comments.deviation_text`, `Comments.modelMatch_iff`, `Comments.system_model_known_iff`, `Comments.system_model_restored`, `Comments.tech_restored`, `Comments.unknown_codes`, `Comments.validity_restored`, `ConvLog.list_list_misses`, `CopyFile.all_or_nothing_partial`, `CopyFile.bytes_kept`, `CopyFile.complete_all`, `CopyFile.copied`, `CopyFile.copied_again`, `CopyFile.copied_onto_itself`, `CopyFile.failure_undone`, `CopyFile.fetched_not_found`, `CopyFile.killed_stays`, `CopyFile.missing_default`, `Dates.letters_either_case`, `Dates.read_form`, `Dates.read_is_date`, `Dates.time_zone_stops`, `DotDict.missing_mandatory`, `DotDict.order_independent_of_assignment`, `DotDict.right_class_partial`, `DotDict.two_values_rejected`, `DotDict.written_in_order`, `Driver.information_leaks`, `Driver.recovers_partial`, `Driver.settings_ignored`, `EcsProps.convert_succeeds`, `EcsProps.dry_mass_needed`, `EcsVars.conversion_link_lost`, `EcsVars.conversions_defined`, `EcsVars.eqName_iff`, `EcsVars.eq_name_undefined`, `EcsVars.formula_written`, `EcsVars.parameters_distinct`, `EcsVars.percent_replaced`, `EcsVars.ref_none`, `EcsVars.ref_unknown`, `EcsVars.references_defined`, `EcsVars.refs_replaced`, `EcsVars.same_name_first_value`, `EcsVars.units_replaced`, `EcsVars.variables_defined_partial`, `Energy.always_net`, `Energy.energy_converted`, `Energy.kind_ignored`, `Energy.kind_kept_iff`, `Energy.unit_kind`, `FileNames.ecs_title`, `FileNames.ilcd_title`, `FileNames.long_name_stops`, `FileNames.no_slash`, `FileNames.no_title`, `FlowFiles.default_version`, `IlcdFlows.direction_kept_partial`, `IlcdFlows.exchange_amounts`, `IlcdFlows.exchange_uncertainty`, `IlcdFlows.group_codes`, `IlcdFlows.group_exists_iff`, `IlcdFlows.groups_always_valid`, `IlcdFlows.id_search_may_not_end`, `IlcdFlows.ids_distinct`, `IlcdFlows.merge_normal_mean`, `IlcdFlows.merge_stale_uncertainty`, `IlcdFlows.merge_variance`, `IlcdFlows.reference_becomes_output`, `IlcdFlows.sum_ok_iff`, `IlcdFlows.unit_dimension_partial`, `IlcdFlows.unit_name_joined_partial`, `IlcdList.amountGiven_iff`, `IlcdList.amount_scaled`, `IlcdList.bounds_scaled`, `IlcdList.factor_added`, `IlcdList.factor_identifier_iff`, `IlcdList.getUri_iff`, `IlcdList.no_file_stops`, `IlcdList.no_formula_stops`, `IlcdList.no_group`, `IlcdList.no_match_kept`, `IlcdList.no_match_property_missing`, `IlcdList.no_result_stops`, `IlcdList.no_unit_retargeted`, `IlcdList.normal_halved`, `IlcdList.others_unscaled`, `IlcdList.parameter_renamed`, `IlcdList.same_unit`, `IlcdList.single_unit_stops`, `IlcdList.target_saved`, `IlcdList.texts_stop`, `IlcdList.unc_exact`, `IlcdList.unit_is_group`, `IlcdList.unknown_unit_stops`, `IlcdList.unmapped_file`, `IlcdList.unmapped_others_missing`, `IlcdList.unmapped_silent`, `IlcdList.variable_exact`, `IlcdProps.allocation_single_stops`, `IlcdProps.allocations_kept`, `IlcdProps.energy_marks`, `IlcdProps.master_keeps_ilcd`, `IlcdProps.master_rows`, `IlcdProps.readProps_ok_iff`, `IlcdVars.defined_twice`, `IlcdVars.factor_circular`, `IlcdVars.nameless_breaks`, `IlcdVars.rename_again`, `IlcdVars.rename_keeps_meaning_partial`, `IlcdVars.unknown_variable`, `IlcdVars.used_twice`, `Inputs.all_delivered_iff`, `Inputs.delivered_process`, `Inputs.ecs_directory`, `Inputs.ilcd_directory`, `Inputs.ilcd_directory_all`, `Inputs.not_delivered_iff`, `Inputs.one_folder_partial`, `Inputs.other_folder_lost`, `Inputs.xml_accepted`, `LangText.unlimited_iff`, `LangText.used_name_rejected`, `LangText.used_name_value_error`, `LeftOut.list_given`, `ListSession.alone_partial`, `ListSession.error_hidden`, `ListSession.exchange_leaves`, `ListSession.failure_leaves`, `ListSession.left_written`, `ListSession.own_parameters`, `ListSession.refused_forever`, `ListSession.refused_leaves`, `ListSession.reported_iff`, `ListSession.start_reported`, `ListSession.written_empties`, `ListSession.written_iff`, `MapFile.absent_reported`, `MapFile.csv_exact`, `MapFile.csv_found_iff`, `MapFile.decided`, `MapFile.earlier_ignored`, `MapFile.json_found_iff`, `MapFile.marks_missed`, `MapFile.no_column`, `MapFile.no_factor`, `MapFile.no_map_type`, `MapFile.relative_lost`, `MapFile.setter_iff`, `MapFile.short_record`, `MapFile.unique_decides`, `MapFile.user_table`, `Mapping.ecs2_fields_covered_partial`, `Mapping.ilcdSelf_fields_covered`, `Mapping.ilcd_fields_covered_partial`, `Naming.listed_distinct`, `Naming.listed_injective`, `Naming.returnText_iff`, `Naming.two_shortnames_stop`, `Naming.unlisted_place_renumbered`, `Options.any_list_accepted`, `Options.defaults_bool`, `Options.defaults_documented`, `Options.getConverter_ok_iff`, `Options.options_hold_flags_partial`, `Options.options_present`, `Options.rejected_keeps`, `Options.usable_iff`, `Output.checkName_minimal`, `Params.brackets_lost`, `Params.collision_wrong_factor`, `Params.parameter_written_partial`, `Params.unit_text_iff`, `Products.german_name_as_english`, `RefUnits.known_ok_iff`, `RefUnits.moles_stop`, `RefUnits.order_kept_partial`, `RefUnits.order_lost`, `RefUnits.property_ok`, `RefUnits.references_lead`, `RefUnits.row_file`, `RefUnits.run_ok_iff`, `RefUnits.time_units`, `RefUnits.unit_name_partial`, `RefUnits.unit_ok_iff`, `Refs.citation_stops`, `Refs.contact_name_stops`, `Refs.contacts_exact`, `Refs.documentation_stops`, `Refs.exchange_sources`, `Refs.files_of_first`, `Refs.found_iff`, `Refs.icon_taken`, `Refs.kind_of_first`, `Refs.lastSegment_spec`, `Refs.master_sources`, `Refs.missing_contact_dangles`, `Refs.none_iff`, `Refs.own_documents_stop`, `Refs.own_files_found`, `Refs.own_flows_found`, `Refs.pages_of_first`, `Refs.picture_stops`, `Refs.publication_sources`, `Refs.source_name_stops`, `Refs.two_pages_stop`, `ReviewTexts.indicators_readable`, `ReviewTexts.scopes_readable`, `Reviews.dateMatch_iff`, `Reviews.long_names_stop`, `Reviews.no_details_back`, `Reviews.no_reviewer_lost`, `Reviews.reviewerName_iff`, `Reviews.reviewers_all`, `Reviews.several_reviewers`, `Reviews.texts_kept`, `Reviews.unnamed_reviewer_stops`, `Reviews.versionMatch_iff`, `Reviews.versions_given`, `Reviews.wrong_date_stops`, `RoundIlcd.counterpart`, `Schema.formats_closed`, `Sentences.sentences_ne_nil`, `Sentences.words_kept_partial`, `Session.hidden_late`, `Session.left_leak`, `Settings.option_line`, `Settings.printed_iff`, `Settings.shown_attribute`, `Shapes.children_value`, `Shapes.comments_read`, `Shapes.ensureList_children`, `Shapes.entry_reads_partial`, `Shapes.flow_name`, `Shapes.leaf_value`, `Shapes.others_read`, `Shapes.prefix_kept`, `Shapes.property_name_partial`, `Shapes.property_name_value`, `Shapes.registration_number`, `Shapes.source_name_partial`, `Stats.elementary_counted`, `Stats.parameters_uncounted`, `Stats.products_counted`, `Stats.properties_counted`, `Stats.uncertainties_at_most`, `Stats.uncertainties_counted_partial`, `Stats.uncertainties_exceed`, `Stats.variables_counted`, `Stats.volumes_counted`, `Tables.codes_exact`, `Tables.compartments_exact`, `Tables.inverse_exact`, `Tables.inverse_last`, `Tables.unit_has_flow_property`, `TextImage.empty_variable_stops`, `TextImage.no_place_kept`, `TextImage.process_iff`, `TextSplit.short_limit_loses_all`, `UncText.kind_back`, `UncText.otherParams_iff`, `UncText.other_silent_iff`, `UncText.params_back`, `UncText.scores_named_iff`, `UncText.unc_converted_iff`, `UncText.variance_cut`, `UncText.variance_exponent`, `UncText.variance_plain`, `UncText.wrong_score`, `Unconverted.no_location_stops`, `Unconverted.required_context_ok`, `Unconverted.review_ok`, `Uuid.uuid_other_key`, `Validators.bool_numbers`, `Validators.enum_reject`, `Validators.enum_single`, `Validators.fraction_is_cut`, `Validators.gis_accepts_iff`, `Validators.limit_enforced_last`, `Validators.longitude_unbounded`, `Validators.number_read_iff`, `Validators.pattern_accepts_iff`, `Validators.pattern_not_exact`, `Validators.pattern_rejects_iff`, `Validators.pattern_trailing_garbage`, `Validators.review_date_first`, `Validators.review_date_latest_clock`, `Validators.review_date_latest_partial`, `Validators.variable_name_accepts_iff`, `Xml.children_kept`, `Xml.read_in_closing_order`, `Xml.stream_prefix`, `XmlWrite.attribute_back`, `XmlWrite.document_ends`, `XmlWrite.fields_fit`, `XmlWrite.text_back_iff`
- **`Classical.choice`, `Quot.sound`, `propext`** (550): `Admin.access_back`, `Admin.access_kept_iff`, `Admin.exclusive_stops`, `Admin.ilcd_version_read`, `Admin.ilcd_version_round`, `Admin.license_decides`, `Admin.nothing_said`, `Admin.period_back`, `Admin.period_kept_iff`, `Admin.period_not_shortened`, `Admin.restricted_stops`, `Admin.text_decides`, `Admin.version_back`, `Admin.version_letter`, `Admin.version_round`, `Admin.version_valid_iff`, `Admin.version_written`, `Admin.years_written`, `Assign.ecs2_never_filled_iff`, `Assign.ilcd_never_filled_iff`, `Assign.no_intermediate_not_written`, `Assign.toEcs2_converts_iff`, `Assign.toEcs2_repeat_stops`, `Assign.toEcs2_written_iff`, `Assign.toIlcd_complete`, `Assign.toIlcd_converts_iff`, `Assign.toIlcd_repeat_stops`, `Assign.toIlcd_written_iff`, `Assign.two_system_models_stop`, `Carried.all_saved_folders`, `Carried.converted_archive`, `Carried.saved_folders`, `Citations.digits_ascii`, `Classes.class_written`, `Classes.flow_class_never`, `Classes.unknown_not_listed`, `Comments.comment_fails_iff`, `Comments.energy_chosen_iff`, `Comments.energy_comment_fails`, `Comments.general_restored_partial`, `Comments.inheritance_lost`, `Comments.removed_lines`, `Comments.tags_lost`, `Comments.unmarked_kept`, `Comments.uuidMatch_iff`, `Comments.validity_comment_fails`, `Comments.written_paragraphs`, `ConvLog.earlier_listed`, `ConvLog.ecs_list_partial`, `ConvLog.endLog_reported`, `ConvLog.found_reported`, `ConvLog.ilcd_list`, `ConvLog.ilcd_list_misses`, `ConvLog.odd_id_not_listed`, `ConvLog.own_log`, `ConvLog.tab_not_listed`, `Dates.date_read`, `Dates.period_written`, `Dates.short_date_read`, `Dates.time_of_day_iff`, `Dates.time_read_iff`, `Dates.zone_stops`, `DotDict.fills_iff_once_each`, `DotDict.only_known_fields`, `DotDict.single_value_kept`, `DotDict.written_iff_complete`, `DotDict.written_iff_mandatory`, `Driver.database_archive_partial`, `Driver.database_complete_iff`, `Driver.database_complete_partial`, `Driver.database_loses`, `Driver.mark_of_other`, `Driver.to_file_outputs`, `Driver.zips_outputs`, `EcsFlows.elementary_converted`, `EcsFlows.exchanges_accounted`, `EcsFlows.exchanges_numbered`, `EcsFlows.functional_unit`, `EcsFlows.merge_fails_iff`, `EcsFlows.merge_gap`, `EcsFlows.merge_identifiers`, `EcsFlows.merge_sources`, `EcsFlows.merge_stale_bounds`, `EcsFlows.merge_total`, `EcsFlows.no_shares`, `EcsFlows.unmerged`, `EcsFlows.versions_clash`, `EcsFlows.versions_distinguish`, `EcsProps.concentration_depends_on_amount`, `EcsProps.ex_convert`, `EcsProps.flow_properties_iff`, `EcsProps.numbers_distinct`, `EcsProps.same_flow_property_twice`, `EcsProps.total_per_dry_mass`, `EcsProps.total_per_unit`, `EcsProps.water_lost`, `EcsVars.commas_all_replaced`, `EcsVars.conversion_kept`, `EcsVars.decimalComma_iff`, `EcsVars.elementary_formula_unscaled`, `EcsVars.plain_formula_kept`, `EcsVars.values_kept_partial`, `ExchComments.blank_tag_stops`, `ExchComments.comment_back`, `ExchComments.comment_kept`, `ExchComments.empty_info_stops`, `ExchComments.empty_location_stops`, `ExchComments.entries_paragraphs`, `ExchComments.exchange_entries`, `ExchComments.exchange_ok_iff`, `ExchComments.exchange_says`, `ExchComments.ilcd_ok_iff`, `ExchComments.ilcd_says_partial`, `ExchComments.merged_says`, `ExchComments.merged_texts`, `ExchComments.no_tags`, `ExchComments.tag_not_named`, `ExchComments.tag_spelled`, `ExchComments.tags_named_iff`, `ExchComments.tags_named_partial`, `ExchComments.unc_range`, `ExchComments.uncertainty_repeated`, `FileNames.archive_saved_iff`, `FileNames.ecs_files`, `FileNames.ecs_output_eq`, `FileNames.ecs_saved_iff`, `FileNames.ilcd_files`, `FileNames.ilcd_saved_iff`, `FileNames.plain_saved_partial`, `FileNames.saved_and_failed`, `FileNames.slashes_fail`, `FileNames.wide_names_fail`, `FirstPass.after_error`, `FirstPass.ecs2_first_pass`, `FirstPass.ecs2_first_pass_iff`, `FirstPass.fileInfo_iff`, `FirstPass.ilcd_first_pass`, `FirstPass.ilcd_first_pass_iff`, `FirstPass.language_kept`, `FirstPass.names_by_number`, `FirstPass.names_of_file`, `FirstPass.no_exchanges_old_names`, `FirstPass.no_exchanges_stop`, `FirstPass.plain_activity_passes`, `FirstPass.plain_child_stops`, `FirstPass.plain_description_stops`, `FirstPass.plain_name_stops`, `FirstPass.two_descriptions_stop`, `FlowFiles.converted_iff`, `FlowFiles.database_elementary`, `FlowFiles.database_exact`, `FlowFiles.database_finds_iff`, `FlowFiles.database_found_partial`, `FlowFiles.each_file_found`, `FlowFiles.flows_found`, `FlowFiles.folder_exact`, `FlowFiles.later_description_lost`, `FlowFiles.names_of_uuid`, `FlowFiles.read_again`, `FlowFiles.reference_of`, `FlowFiles.same_reference_iff`, `FlowFiles.version_accepted`, `FlowFiles.version_form_iff`, `IlcdFlows.elementary_reference_stops`, `IlcdFlows.exchanges_accounted`, `IlcdFlows.id_search_ends`, `IlcdFlows.limits_enclose`, `IlcdFlows.limits_reversed`, `IlcdFlows.merge_groups`, `IlcdFlows.merge_ids`, `IlcdFlows.merge_keeps_first`, `IlcdFlows.merge_order_matters`, `IlcdFlows.merge_stale_example`, `IlcdFlows.merge_total`, `IlcdFlows.unit_id_other`, `IlcdFlows.unit_unknown_lost`, `IlcdFlows.waste_becomes_output`, `IlcdList.all_exact`, `IlcdList.all_flows_saved`, `IlcdList.flow_saved`, `IlcdList.mean_kept`, `IlcdList.no_result_stops_all`, `IlcdList.no_unit_iff`, `IlcdList.normal_wrong`, `IlcdList.one_stops_all`, `IlcdList.others_wrong`, `IlcdList.read_plain`, `IlcdList.reported_iff`, `IlcdList.same_unit_right_iff`, `IlcdList.saved_grows`, `IlcdList.undefined_mixed`, `IlcdList.units_exact`, `IlcdList.variable_mean_right_iff`, `IlcdList.variable_renamed`, `IlcdList.variable_used_twice`, `IlcdPropUnc.amount_outside_bounds`, `IlcdPropUnc.convert_iff`, `IlcdPropUnc.convert_plain`, `IlcdPropUnc.convert_succeeds_iff`, `IlcdPropUnc.uncertainty_of_file`, `IlcdPropUnc.uncertainty_of_value`, `IlcdProps.content_times_dry`, `IlcdProps.contents_lost`, `IlcdProps.convertProps_succeeds`, `IlcdProps.energy_code`, `IlcdProps.ex_allocation_collapse`, `IlcdProps.ex_convert`, `IlcdProps.ex_master`, `IlcdProps.exchange_ok_iff`, `IlcdProps.masses_consistent`, `IlcdProps.properties_iff`, `IlcdProps.variants_unused`, `IlcdProps.volume_gets_mass`, `IlcdVars.formulas_kept_partial`, `IlcdVars.name_begins_with_letter`, `IlcdVars.name_kept_iff`, `IlcdVars.no_formula_partial`, `IlcdVars.variables_once_partial`, `Included.end_lines`, `Included.kept_iff`, `Included.language_lost`, `Included.languages_joined`, `Included.no_end`, `Included.part_read`, `Included.plain_kept`, `Included.several_lines`, `Included.written_whole`, `Inputs.root_name_lost`, `LangText.classification_written_partial`, `LangText.images_in_order`, `LangText.indexed_by_digits`, `LangText.indexed_in_order_partial`, `LangText.later_first`, `LangText.multilang_pieces`, `LangText.multilang_written_partial`, `LangText.name_of_any_length`, `LangText.name_written_partial`, `LangText.named_unique`, `LangText.named_written_partial`, `LangText.plain_written`, `LangText.second_text`, `LangText.synonym_lost`, `LangText.synonyms_exact`, `LeftOut.earlier_file_stays`, `LeftOut.goes_on_partial`, `LeftOut.lists_kept`, `LeftOut.never_kept`, `LeftOut.number_kept`, `LeftOut.registration_number_stops`, `LeftOut.texts_kept`, `ListSession.alone_iff`, `ListSession.stranger_written`, `Mapping.ecs2_paths_occur`, `Mapping.ecs2_unseen`, `Mapping.ilcdSelf_paths_occur`, `Mapping.ilcd_paths_occur_partial`, `Mapping.ilcd_unseen`, `Mapping.misspelt_mapped`, `Mapping.unseen_occur`, `Naming.back_other_name`, `Naming.bare_name_stops`, `Naming.base_name_iff`, `Naming.comment_link`, `Naming.english_synonyms_kept`, `Naming.id_of_name_partial`, `Naming.id_of_other_name`, `Naming.index_agrees`, `Naming.linked_id`, `Naming.location_accepted`, `Naming.master_joined_partial`, `Naming.master_other_name`, `Naming.name_first_id_last`, `Naming.name_first_partial`, `Naming.name_id`, `Naming.name_none`, `Naming.name_part_iff`, `Naming.no_place`, `Naming.parts_lost`, `Naming.place_identified`, `Naming.search_link`, `Naming.synonym_divided`, `Naming.synonym_turned_english`, `Naming.synonyms_back_partial`, `Naming.there_and_back`, `Naming.uuidOk_iff`, `Options.number_accepted`, `Options.setAttr_iff`, `Output.checkName_fresh`, `Params.comments_back_partial`, `Params.conversion_back_iff`, `Params.conversion_names_distinct_partial`, `Params.converted_back_iff`, `Params.name_written_iff`, `Params.unit_back_partial`, `Params.unit_written_iff`, `PlaceIndex.entry_elem_ok`, `PlaceIndex.entry_iff`, `PlaceIndex.list_stops`, `PlaceIndex.no_language_refused`, `PlaceIndex.place_elem_ok`, `PlaceIndex.place_iff`, `PlaceIndex.section_kept`, `PlaceIndex.texts_placed`, `PlaceIndex.texts_written`, `PlaceIndex.two_codes_stop`, `Products.cas_lost`, `Products.flow_of`, `Products.languages_lost`, `Products.link_lost`, `Products.link_of_child`, `Products.name_kept_partial`, `Products.name_unreadable`, `Products.no_name`, `Products.no_synonyms`, `Products.sample_loses`, `Products.volume_comments_kept`, `Products.volume_no_number`, `Products.volume_stated`, `Products.volume_uncertainty_stops`, `Products.volumes_stated`, `PropUnc.convert_erase`, `PropUnc.convert_succeeds`, `PropUnc.lognormal_zero_stops`, `PropUnc.uncertainty_exact`, `PropUnc.uncertainty_lost`, `PropUnc.uncertainty_missing_iff`, `PropUnc.variable_uncertainty_iff`, `PropUnc.variable_wrong`, `PropUnc.zero_content_stops`, `PropsRound.content_round_trip`, `PropsRound.contents_need_water`, `PropsRound.heating_round_trip`, `RefUnits.amount_kept_partial`, `RefUnits.converted`, `RefUnits.converted_base`, `RefUnits.currency_kept_iff`, `RefUnits.duration_as_years`, `RefUnits.duration_not_kept`, `RefUnits.exchange_amount_partial`, `Refs.image_taken`, `Refs.other_version`, `RepTexts.converted_iff`, `RepTexts.english_grows`, `RepTexts.no_language_stops`, `RepTexts.other_language_heading`, `RepTexts.other_language_kept_partial`, `RepTexts.plain_deviation_stops`, `RepTexts.run_error`, `RepTexts.run_ok_iff`, `RepTexts.run_shows`, `RepTexts.silence_lost`, `RepTexts.texts_arrive_partial`, `RepTexts.trip_exists`, `RepTexts.trip_good`, `RepTexts.trip_texts`, `ReviewDetails.back_wanted_iff`, `ReviewDetails.details_back`, `ReviewDetails.details_said`, `ReviewDetails.other_said_partial`, `ReviewDetails.other_stops`, `ReviewDetails.paragraphs_exist`, `ReviewTexts.details_stated`, `ReviewTexts.indicator_value_needed`, `ReviewTexts.other_said`, `Reviews.date_time_lost`, `Reviews.details_back`, `Reviews.external_is_internal`, `Reviews.find_zero_iff`, `Reviews.kind_never_external`, `Reviews.kind_none_iff`, `Reviews.kind_some`, `Reviews.readVersion_text`, `Reviews.round_trip`, `Reviews.there_and_back`, `RoundIlcd.direction_kept_iff`, `RoundIlcd.elementary_back`, `RoundIlcd.elementary_total`, `RoundIlcd.money_back`, `RoundIlcd.products_back`, `RoundIlcd.products_numbered`, `RoundIlcd.property_back`, `RoundIlcd.total_depends_on_summing`, `RoundIlcd.treatment_lost`, `RoundIlcd.type_back`, `RoundIlcd.type_kept_iff`, `RoundIlcd.value_back`, `RoundIlcd.value_kept_iff`, `RoundIlcd.value_kept_partial`, `RoundTrip.elementary_back`, `RoundTrip.elementary_total`, `RoundTrip.elementary_total_merged`, `RoundTrip.first_unique`, `RoundTrip.mass_time_back`, `RoundTrip.money_back`, `RoundTrip.names_back`, `RoundTrip.not_kept`, `RoundTrip.products_back`, `RoundTrip.products_back_merged`, `RoundTrip.quantity_back`, `RoundTrip.same_elementary_quantity_iff`, `RoundTrip.same_flow_iff`, `RoundTrip.same_groups_iff`, `RoundTrip.same_groups_own`, `RoundTrip.same_name_iff`, `RoundTrip.same_quantity_partial`, `RoundTrip.stranger_quantity_iff`, `RoundTrip.unit_back`, `Schema.ecs2_names_distinct`, `Schema.ecs2_order_independent`, `Schema.formats_good_order`, `Schema.ilcd_names_distinct`, `Schema.ilcd_order_independent`, `Sentences.decimals_cut`, `Sentences.decimals_lost`, `Sentences.long_text_kept`, `Sentences.long_text_words`, `Sentences.plain_exact`, `Sentences.text_kept`, `Sentences.unquoted_kept`, `Session.bad_variable_forever`, `Session.clean_iff`, `Session.disturbs_poisons`, `Session.error_hidden`, `Session.error_kept`, `Session.fails_forever`, `Session.file_error`, `Session.file_error_iff`, `Session.independent`, `Session.kept_early`, `Session.leaves_iff`, `Stats.properties_exceed`, `Stats.sums_counted`, `Stats.uncertainties_negative`, `TextImage.addSource_iff`, `TextImage.addSource_refused`, `TextImage.comment_converted_partial`, `TextImage.doImages_iff`, `TextImage.findId_iff`, `TextImage.identified_unique`, `TextImage.images_apart_partial`, `TextImage.order_matters`, `TextImage.second_image_lost`, `TextImage.seed_injective`, `TextImage.seed_read`, `TextImage.textUuid_error_iff`, `TextImage.textUuid_iff`, `TextImage.variables_filled`, `TextSplit.content_kept_partial`, `TextSplit.content_sublist_partial`, `TextSplit.last_word_lost`, `TextSplit.limit_fifty_fails`, `TextSplit.pieces_within_limit`, `TextSplit.short_limit_kept`, `TextSplit.short_limit_loss_iff`, `TextSplit.split_within_limit_iff`, `UncText.comments_back_partial`, `UncText.long_lost`, `UncText.long_other_lost`, `UncText.other_back_partial`, `UncText.pedigree_back_partial`, `UncText.pedigree_only_partial`, `UncText.pedigree_stops_iff`, `UncText.unc_silent_iff`, `Uncertainty.bounds_enclose_partial`, `Uncertainty.bounds_negative_factor`, `Uncertainty.bounds_negative_lognormal`, `Uncertainty.elementary_bounds_miss`, `Uncertainty.elementary_lognormal`, `Uncertainty.elementary_normal_iff`, `Uncertainty.product_exact`, `Uncertainty.quotient_exact`, `Uncertainty.round_trip`, `Uncertainty.round_trip_negative`, `Uncertainty.scaled_exact`, `Uncertainty.scaled_value`, `Uncertainty.sum_certain`, `Uncertainty.sum_exact_iff`, `Unconverted.activity_classification`, `Unconverted.allocation_context_error`, `Unconverted.allocation_context_stops`, `Unconverted.data_set_ok`, `Unconverted.data_set_recorded`, `Unconverted.elementary_ok_partial`, `Unconverted.elementary_recorded`, `Unconverted.entry_ok`, `Unconverted.entry_recorded`, `Unconverted.flow_ok`, `Unconverted.flow_recorded`, `Unconverted.generator_ok`, `Unconverted.intermediate_ok_partial`, `Unconverted.intermediate_recorded`, `Unconverted.parameter_ok`, `Unconverted.parameter_recorded`, `Unconverted.product_classification`, `Unconverted.property_ok`, `Unconverted.property_recorded`, `Unconverted.required_context_recorded`, `Unconverted.volume_ok`, `Unconverted.volume_recorded`, `UnitNames.accepted_iff`, `UnitNames.correct_twice_partial`, `UnitNames.denominator_differs`, `UnitNames.denominator_partial`, `UnitNames.formula_keeps_digits`, `UnitNames.formula_unit_partial`, `UnitNames.horsepower_hours`, `UnitNames.negative_exponent`, `UnitNames.other_formula`, `UnitNames.prefix_not_raised`, `UnitNames.unit_read_partial`, `UnitNames.unit_value_partial`, `Uuid.uuid_accepts_iff_partial`, `Uuid.uuid_injective`, `Uuid.uuid_malformed_accepted`, `Uuid.uuid_other_kind`, `Uuid.uuid_roundtrip_ecs_ilcd_ecs`, `Uuid.uuid_roundtrip_exact`, `Uuid.uuid_roundtrip_ilcd_ecs_ilcd`, `Uuid.uuid_shape`, `Validators.bool_fractions`, `Validators.cas_accepts_iff_partial`, `Validators.code_fields_exact_partial`, `Validators.enum_content`, `Validators.enum_list_filled`, `Validators.enum_only_listed`, `Validators.gis_three_digits`, `Validators.int1_exact_partial`, `Validators.int6_exact_partial`, `Validators.latitude_bound`, `Validators.limit_enforced`, `Validators.number_text_same`, `Validators.percent_exact_partial`, `Validators.review_date_latest_iff`, `Validators.review_date_order_iff`, `Validators.uuid_accepts_iff_partial`, `Validators.version_accepts_iff_partial`, `Validators.year_exact_partial`, `Xml.attributes_delivered`, `Xml.element_represented`, `Xml.elements_delivered`, `XmlWrite.ecs2_file`, `XmlWrite.ilcd_file`, `XmlWrite.reference_iff`, `XmlWrite.structure_kept`, `XmlWrite.structure_kept_iff`, `XmlWrite.written_delivered`, `XmlWrite.written_read_back`, `XmlWrite.written_readable_iff`, `XmlWrite.written_readable_partial`, `XmlWrite.written_unreadable`

## Parts of the code that are modelled

Taken from the heads of the model files. Each definition in them cites its own lines.

### `Model/Admin.lean`

Version, time period, type, publication status and access of a data set.
EcoSpold2 to ILCD: src/Lavoisier/conversions/ECS2_to_ILCD1_conversion.py:2008-2014, 2164-2170, 2196-2198, 2275-2280,
2441-2461.
ILCD to EcoSpold2: src/Lavoisier/conversions/ILCD1_to_ECS2_conversion.py:1442-1446, 1490-1493, 1701-1708, 1753-1755,
1882-1899, 1919-1931.

Simplifications: a date is given by its numbers; `Model/Dates` reads it from the text (times are ignored by the
code). Only the English text of the access restrictions is given.

### `Model/Archive.lean`

The data sets of an ILCD archive and the references between them.
Models src/Lavoisier/formats/ILCD1_format.py:56-104 (the files every archive gets, the process files) and of
src/Lavoisier/conversions/ECS2_to_ILCD1_conversion.py:692-750 (properties), 870-910 (`get_unit_property`), 1024-1044
(`get_properties`), 1185-1228 and 1337-1367 (`get_flow_dict` of the two kinds of exchanges), 1394-1650 (the references, the
data sets made for them, `all_data`), 1890-1938 (what is reset), 2012-2036 (the references every process has), with the
files of Lavoisier_Default_Files.

Simplifications: of a data set only its kind, its identifier and the identifiers and kinds it refers to are kept; versions
and locations of references are in Model/FlowFiles, Model/Refs and Model/RefUnits. The operations of a data set are given in
the order in which they are carried out; which properties of an exchange stay on it (`get_ilcd_equivalent`) is part of the
input. References to files that are not data sets (documents, pictures) are left out. Elementary flow files of the package
are a parameter. An error stops the conversion, and the archive is not written.

### `Model/Assign.lean`

The assignments every entry of the two `mapping` dictionaries makes to the output data set, together with the ones
made before the first path (`set_output_class_defaults`), at the first path (`default`) and at the end
(`reset_conversion`, `get_filename`), transcribed from src/Lavoisier/conversions/ECS2_to_ILCD1_conversion.py and
ILCD1_to_ECS2_conversion.py on the classes of src/Lavoisier/data_structures/.

The values are left open. A condition under which an entry assigns a field is given by a name, and whether it holds
for a delivered element is left open too. Simplifications: assignments to objects other than the output data set
(`NotConverted`, the log, class attributes, the holder of the activity name) are left out; the deletion and new assignment of
`functionalUnitFlowProperties` and of summed elementary exchanges are left out (fields that are not mandatory and
not unique); a condition is one name although the code may assign a field for several parts of an element.

The conversion of classifications from ILCD is switched off (ILCD1_to_ECS2_conversion.py:1066-1140, 1442-1452 and
1682-1684), so its entry has no rows.

### `Model/Assoc.lean`

Python dictionaries as lists of pairs in order of insertion.

### `Model/Citations.lean`

How a source is named in ILCD, and how its author, year and pages are read from the name.
Models src/Lavoisier/formats/helpers.py:66-75 (`source_short_ref`) and
src/Lavoisier/conversions/ILCD1_to_ECS2_conversion.py:885-919 (`get_source` of a regular source).

The regular expressions `(.*)[ \(\[,](\d{4})[\)\]] p\. (.*)$` and `(.*)[ \(\[,](\d{4})[\)\]](?:.*)$` are modelled by
their meaning: the last part has to reach the end of the text and a point does not match the end of a line, so both
match in the last line only, from its beginning, and the first part is as long as possible. Which characters are digits
is a parameter.

Simplification: texts are given as plain texts; the file of the source and its identifier are in `Refs`.

### `Model/ClassTables.lean`

The classification file that is put into every ILCD output and the classes the mapping file leads to.
Written by a script from the two files, category by category.

### `Model/Classes.lean`

The classifications of an EcoSpold2 data set and of its exchanges on their way to ILCD.

Simplifications: an EcoSpold2 classification is given by the text of its system, the text of its value
(`none` for an element without text) and its identifier; missing elements (a `KeyError`) are not modelled.
The mapping file is a parameter, except for the pairs of class identifier and class name that occur in it
(`Model/ClassTables`). Left out: the statistics and the log.

### `Model/Comments.lean`

Codes carried as lines of comments.
EcoSpold2 to ILCD writes several coded attributes as lines of comment fields
(src/Lavoisier/conversions/ECS2_to_ILCD1_conversion.py:2178-2206, 2230-2235, 2246-2250, 2268-2271, 2281-2284,
2355-2359); ILCD to EcoSpold2 searches the comments for such lines, reads the codes and removes the lines
(src/Lavoisier/formats/helpers.py:89-119 and src/Lavoisier/conversions/ILCD1_to_ECS2_conversion.py:1544-1629).

Simplifications: a function returns the values it assigns; the same value assigned to other places (the index
entry and the master data, :1549-1553, 1559-1564) is not repeated. `parentActivityId` can be assigned only
once, so a second comment with such a line raises an error that is not modelled.

### `Model/ConvLog.lean`

The log of a conversion and the list of flows that were not converted.
Models src/Lavoisier/formats/utils.py:22-50 (`DefaultLog`), the log files of the two output formats
(src/Lavoisier/formats/ILCD1_format.py:94-95, 111; src/Lavoisier/formats/ECS2_format.py:27-29, 42) and the entries that
the conversions write for an elementary flow (src/Lavoisier/conversions/ECS2_to_ILCD1_conversion.py:1268-1270, 1304-1330;
src/Lavoisier/conversions/ILCD1_to_ECS2_conversion.py:399, 200-209, 93-101, 1028-1041;
src/Lavoisier/conversions/ILCD1_to_ILCD1_conversion.py:143-156).

The regular expression of `end_log` is modelled as the matcher it describes: the gaps `[\W]+` are followed by a letter,
so they are the longest ones; the name `[\S ]+?` is the shortest one with which the rest matches. `\w` is a parameter.

Simplifications: a log entry is a level and a message; the entries of a flow that is converted are a parameter.

### `Model/DataTables.lean`

The tables of codes, transcribed from src/Lavoisier/conversions/data.py (generated from its text).
A table is a list of pairs in the order of the source. The tables defined by comprehension
`{v: k for k, v in d.items()}` are `inverse d`.

### `Model/DotDict.lean`

The data set tree filled by the conversions.
Models src/Lavoisier/data_structures/main.py:41-147 (`DotDict`).

Field classes (`VALID` tables) are a parameter `Schema`. Validators (leaf fields) are a parameter
`Validators`: a state, an `add` that returns the new state or an exception, and an `end`. In the
code `add` is applied to the stored object in place, but every `add` of
validators/general_validators.py validates before it changes the object, so that a failing `add`
leaves it unchanged; this is what the functional signature expresses.

Simplifications: Python object identity is not modelled. A nested `DotDict` handed over with an
assignment is stored as a value, and nested objects are changed through paths from the root
(`a.b.c = v`), which is how the field mappings write.

### `Model/Driver.lean`

The course of a conversion.
Models src/Lavoisier/converter.py:158-280 (`Converter`: options, `start_conversion`, `iterate`,
`reset_conversion`, `end_conversion`, `convert`), src/Lavoisier/formats/abstractions.py:82-87 and
105-157 (`_yield_files`, `OutputTemplate`), src/Lavoisier/formats/ILCD1_format.py:55-122
(`ILCD1Output`) and src/Lavoisier/formats/ECS2_format.py:24-43 (`ECS2Output`).

The field mapping, the structure of a data set and the parsing of a file are parameters (`Ops`): they
may do anything to their own state and may fail at any point. A step that fails says in which state it
leaves the mapping and the data set.

Simplifications: of the temporary directory of an ILCD output only the processes are modelled; the
logs are not; input/output errors of the disk are not, except writing into a temporary directory that
has been removed.

### `Model/EcsFlows.lean`

The exchanges of an EcoSpold2 data set on their way to ILCD.
Models src/Lavoisier/conversions/ECS2_to_ILCD1_conversion.py:925-1031 (`ECS2ToILCD1FlowConversion`:
construction, `basic_initialization`, `get_direction`, `get_allocation`), 1145-1256
(`ECS2ToILCD1IntermediateFlowConversion`: construction and `get_flow_dict`), 1266-1391
(`ECS2ToILCD1ElementaryFlowConversion`), 1577-1640 (identifier, version and file of a flow reference)
and 2062-2112 (`reset_conversion`: amounts and the summing of equal elementary flows).

Simplifications: an exchange is a record of the texts the code takes out of the dictionary of the
element. `float`, the unit library, the conversion of identifiers, the version in the file of an
elementary flow and the flow properties of a product are functions of an environment. The fields of the
exchange that stand only for themselves (comments, production volume, variables) are left out; the amounts
and uncertainties are those of `Verif.Uncertainty`. The exchange in the data set and `flow.field` are the
same object in the code, so one list stands for both.

### `Model/EcsProps.lean`

The properties of an exchange of EcoSpold2 on their way to ILCD.
Models src/Lavoisier/conversions/ECS2_to_ILCD1_conversion.py:662-923 (`Property`) and 1034-1052 (`get_properties`).

Simplifications: a property is a record of the texts the code reads. `float` and the unit library are functions of an
environment: for the text of a unit, the text printed for it, the text printed for the unit of ILCD it is converted to,
and the factor; and the check whether a unit has the dimension of the exchange. Uncertainties, formulas, comments,
sources and what is reported in the list of data not converted are left out.

### `Model/EcsVars.lean`

The variables and formulas of an EcoSpold2 data set on their way to ILCD.
Models src/Lavoisier/conversions/ECS2_to_ILCD1_conversion.py:232-370 (`ECS2ToILCD1VariableConversion` with
`Formula`), the naming of variables, :373-401, `construct_variable`, :461-505, `add_flow_data`, :507-509, the
amount of an elementary exchange, :1314-1321, and the writing of variables and references to them at the end
of a data set, :2061-2084.

Parameters: the values (any type with a multiplication and a one; rounding is not modelled), the conversion
of units (pint), `float` and `str` of a number.

Simplifications: uncertainty and comments of variables are left out. The limit on the length of a name is
checked when the file is written (see Verif.Validators) and not here. In :304-305 the text of a reference is
used as a regular expression; the model replaces it literally, which is the same for texts without special
characters, such as the identifiers of EcoSpold2. `_cv` is always true: `converted_var` hands its argument
over as the comment, :364, and the only other place that sets it does so with `True`, :480-481.

### `Model/Energy.lean`

The kind of calorific value an activity states, on its way to the flow property of its energy flows.
Models src/Lavoisier/conversions/ECS2_to_ILCD1_conversion.py:668 (`_energy`), 870-910 (`get_unit_property`, in
Model/RefUnits), 1195-1199 (its call for a product), 1922-1938 (`reset_conversion`, as far as the attribute is concerned),
2203-2206 (the attribute `energyValues`).

Simplifications: of a data set the code of `energyValues` and, for each product or waste, the text of the dimension of its amount
are kept. The attributes of the class `Property` are a list of names and values. An error stops the run.

### `Model/FileNames.lean`

The names of the files made in the output directory, and what happens when the system does not accept them.
Models `get_filename` of src/Lavoisier/data_structures/ECS2_structure.py:869-875 and
src/Lavoisier/data_structures/ILCD1_structure.py:504-511, `check_name_for_existence` of
src/Lavoisier/formats/abstractions.py:131-138 with names that are too long, the files opened by
src/Lavoisier/formats/ECS2_format.py:26-43, src/Lavoisier/formats/utils.py:26-51 and
src/Lavoisier/formats/ILCD1_format.py:106-118.

A directory is the list of the names of its files; it has no folders. The system accepts the name of a file if it
has at most 255 bytes in UTF-8 and no slash (`NAME_MAX` of Linux; trusted); other errors of the disk are not
modelled. What the data set gives for its name, place and dates (`get` of the validated fields) are inputs, and so
is whether an elementary flow was not converted. The conversion of the content succeeds.

### `Model/Fill.lean`

A conversion as the list of its assignments to the output data set, up to the first exception.
Models the effect of src/Lavoisier/data_structures/main.py:63-120 on the loop of
src/Lavoisier/converter.py that calls `field_mapping[path](output, value)` for every delivered path.

### `Model/FirstPass.lean`

First pass over a file: name, version, language and flow names.
Models src/Lavoisier/formats/configurations.py:46-66 (`initial_info` of both formats),
src/Lavoisier/converter.py:193-214 (`_get_pre_instance_file_information`,
`_set_post_instance_file_information`) and
src/Lavoisier/conversions/ILCD1_to_ECS2_conversion.py:1379-1391 (`delete`, `set_file_info`).

The reading of the file is `Verif.Xml.read` with the paths of the table. A tuple of the program is a
list of values. The other keys a table may have ('format') are not used by the two formats.

### `Model/FlowFiles.lean`

The flow data sets an EcoSpold2 data set brings along, and the references to them.
Models src/Lavoisier/conversions/ECS2_to_ILCD1_conversion.py:1185-1228 (`get_flow_dict` of the intermediate exchanges),
1337-1367 (`get_flow_dict` of the elementary exchanges), 1418-1463 (the name of the file), 1538-1612 (`get_version`,
`produce_new_version`, the reference and its `complete_info`), 1631-1642 (`make_dataset` for flows), 1925-1938 (what is
reset between two data sets), and src/Lavoisier/converter.py:254-269 (one output for each data set, or one for all).

Simplifications: the properties written to the file (`fp`, of type `P`) and the rest of it (names, classification, type:
of type `I`) are taken as they are; of a default file only the version is looked at. Of the type of an exchange only what
matters here is kept. An error stops the whole conversion and the folder is thrown away, so that the state after an error
is not kept. `int` reads what `parseInt` reads.

### `Model/GeoTable.lean`

The locations of ILCD that have an identifier in EcoSpold2.
Generated from src/Lavoisier/Mappings/ilcd1_to_ecs2_geographies.json (all 479 entries, by identifier).

### `Model/IlcdFlows.lean`

The exchanges of an ILCD data set on their way to EcoSpold2.
Models src/Lavoisier/conversions/ILCD1_to_ECS2_conversion.py:194-260 (`ILCD1ToECS2Amount`), 370-424
(`ILCD1ToECS2FlowConversion`: construction), 611-705 (`get_elementary_flow_info`, `get_intermediate_flow_info`), 707-778
(`finish_flow_info`, `set_field`), 980-1063 (`ILCD1ToECS2FlowReferenceConversion`) and 1498-1530
(`reset_conversion`: the summing of equal elementary flows).

Simplifications: an exchange is a record of the texts the code takes out of the dictionary of the element, and
the file of its flow a record of the fields the code reads. `float`, the unit library (a dimension and a factor per
unit), the hash of `uuid3`, the conversion of identifiers and the finding of files are functions of an environment.
The variable of an exchange is given with it (see Verif.IlcdVars), its uncertainty is given with its parameters
already computed (see Verif.Uncertainty). Properties are in Verif.IlcdProps. CAS numbers, synonyms and sources, which
are copied, are left out. An object is identified by its number; the lists of the data set hold the objects of the
flows, so that one list stands for both.

### `Model/IlcdList.lean`

The exchanges of an ILCD data set on their way to another list of elementary flows.
Models src/Lavoisier/conversions/ILCD1_to_ILCD1_conversion.py:46-343 (`ILCD1ToILCD1ElementaryFlowConversion`) and 449-450
(the variables it starts with).

Simplifications: of an exchange, a variable and a file the fields that the code reads or sets are given. `float` is a
parameter, numbers are those of a field. The files of the archive are given by their paths within it, as texts; which
default files the program has and what they contain is a parameter. `shutil.copy` is recorded as the name of the file
in the target folder. `lower` is that of ASCII.

### `Model/IlcdPropUnc.lean`

The uncertainties of the flow properties of ILCD on their way to EcoSpold2.
Models src/Lavoisier/conversions/ILCD1_to_ECS2_conversion.py:94-110, 128-161 (`_get_data`, `calculate`), 198-211, 234-240
(the amount and `calculate_unc`), 454-482 (`normal_init`), 520-536 (`mass_prop_init`), 539-593 (`convert_properties`) and
595-606 (`get_properties`).

It follows Verif.IlcdProps, which leaves the uncertainties out.

Simplifications: those of Verif.IlcdProps; numbers are real numbers. A distribution that ILCD has no word for is read
from the comments, see Verif.UncText, and is left out here. So are the pedigree and the basic variance.

### `Model/IlcdProps.lean`

The properties of a flow of ILCD on their way to EcoSpold2.
Models src/Lavoisier/conversions/ILCD1_to_ECS2_conversion.py:419-423 (allocation), 425-611 (`Property`, `get_properties`,
`get_master_data_properties`) and 749-758 (the properties of an exchange).

Simplifications: a flow property in the file of a flow is a record of the texts the code reads. `float`, the check of a
unit by the unit library and the hash are functions of an environment. Uncertainties and comments are left out. The
unit of the exchange is the text that the unit library prints for it (`str(flow.amount.u)`).

### `Model/IlcdVars.lean`

The variables of an ILCD data set on their way to EcoSpold2.
Models src/Lavoisier/conversions/ILCD1_to_ECS2_conversion.py:263-367 (`ILCD1ToECS2VariableConversion`), the
use of variables by exchanges, :411-413 and 731-736, and the reset for exchanges that are not converted,
:1058-1059.

Simplifications: of a variable only its names and its formula are kept. The object of a variable is shared
between the dictionary and the exchange in the code; the exchange reads the name and the formula at once
(the whole of an exchange is converted before the next one is read, :1934-1938), so a copy is the same.
The dictionary entry `name + '_original'` shares its object with the entry of the name; it is marked as used
and so never read again, unless an exchange refers to a variable of that very name.

### `Model/Included.lean`

The start and the end of the included activities and the level of technology, read from the descriptions of the
technology in all languages.
Models src/Lavoisier/conversions/ILCD1_to_ECS2_conversion.py:1595-1612 (`tech_comment`) with what its assignments do
to the fields `includedActivitiesStart`, `includedActivitiesEnd` (src/Lavoisier/data_structures/ECS2_structure.py:586-587)
and `technologyLevel`, for every description delivered by the reader (:1732-1734).

Simplification: of the comment left (`technology.comment`, with its running index) the language and the text are kept,
in order.

### `Model/Inputs.lean`

The files a conversion starts from.
Models src/Lavoisier/formats/abstractions.py:48-63 (`PathVerifier._verify_path`), 66-96 (`InputTemplate`),
src/Lavoisier/formats/ILCD1_format.py:17-51 (`ILCD1Input`), src/Lavoisier/formats/ECS2_format.py:13-22
(`ECS2Input`) and what the loop of src/Lavoisier/converter.py:259-280 does when the files cannot be listed.

A file of a directory is its name and, for an archive, the list of its entries (`none`: not a zip file).

Simplifications: names of entries are relative paths without empty parts and without `..` (`extractall`
changes others); no folder of an archive has a name that ends with `.xml`; a system that tells capital
letters from small ones; the order in which the system lists the files of a folder is not modelled (here
it is the order of the archive).

### `Model/LangText.lean`

Text fields with a language, an index or a name.
Models src/Lavoisier/data_structures/validators/general_validators.py:180-335,
ECS2_validators.py:85-185 and ILCD1_validators.py:42-55.

The `#text` of an entry is itself a validator; the model keeps its text. Sentence splitting
(utils.py:20-50) is the parameter `sent`. Not modelled: the dictionaries given by the caller are
changed in place (`x['#text']` becomes a validator object).

### `Model/MapFile.lean`

The table of elementary flows that a user gives to a converter.
Models src/Lavoisier/converter.py:80-92 (`__check_new_mapping`, the setter of `elem_flow_mapping`) and 184-189
(`_set_field_mapping`), src/Lavoisier/conversions/utils.py:116-128 (`_dict_from_file`), the beginning of `set_mappings`
(src/Lavoisier/conversions/ECS2_to_ILCD1_conversion.py:1842-1844, ILCD1_to_ECS2_conversion.py:1281-1283,
ILCD1_to_ILCD1_conversion.py:359-361) and the reading of a row
(ECS2_to_ILCD1_conversion.py:1304-1330, ILCD1_to_ECS2_conversion.py:1028-1041, 613-645).

Parameters: what is in the files, how the `csv` module cuts a text into records, how `json` reads a text, and `float`.

Simplifications: a path is a mark whether it is absolute and the list of its parts; the folder of the program holds no
links. `csv.DictReader` is modelled on the records. Of the reading of a row, only what is taken from the table is
modelled; the amount and the compartment table are those of the models `EcsFlows` and `IlcdFlows`.

### `Model/MappingKeys.lean`

The paths the field mappings wait for, transcribed from the keys of the dictionaries returned by
`mapping` in src/Lavoisier/conversions/, and the top level of the documents of both formats.
A path is a list of element names and, for a path ending in `/@a`, the attribute name.

### `Model/Naming.lean`

Names, identifiers, location and synonyms of an activity.
ILCD to EcoSpold2: src/Lavoisier/conversions/ILCD1_to_ECS2_conversion.py:1388-1389, 1414-1415, 1430-1431 (defaults),
1454-1478 (system model), 1497, 1544-1585 (general comment), 1637-1646 (`new_geography_master`), 1650-1679 and
1685-1688, 1701-1708, 1720-1728 (entries of the mapping); EcoSpold2 to ILCD:
src/Lavoisier/conversions/ECS2_to_ILCD1_conversion.py:2222-2228 and 2255-2260. The helpers are
src/Lavoisier/formats/helpers.py:42-57 and 77-85; whether a field can be set twice is from
src/Lavoisier/data_structures/ECS2_structure.py:261-266, 350-363, 504-514, 573-603, 605-610 and
ILCD1_structure.py:106-113, 133, 172.

The elements of an ILCD file are met in the order of the file; `step` is what one of them does to the data set and
`run` goes through all of them. A value is what the reader makes of an element (C22, C23). The fields of the data
set are those of `State`; the other fields set by the same entries (the tags, the depth of inheritance) are left
out, and of the general comment only its language is checked, not its text kept. `uuid_from_string` and `uuid_from_uuid` (C01-C04) and the reading of
dates (C93) are parameters; what `uuid_from_string` returns has the form of an identifier. Messages and the log are
left out.

### `Model/Options.lean`

Making a converter and setting its options.
Models src/Lavoisier/converter.py:158-169 (`_start_configurations`, `__setattr__`),
converter.py:384-405 and 442-475 (`ConverterFactory.get_converter`, `get_converter`),
src/Lavoisier/formats/abstractions.py:48-77 (`PathVerifier`, `InputTemplate.__init__`),
src/Lavoisier/formats/configurations.py:31-109 (extensions and options of the formats) and
src/Lavoisier/conversions/factories.py:46-86 (`MappingFactory.default_mappings`, `get_mapping`).

Simplifications: a Python value is a boolean, an integer, a float (by its rational value, if it is
finite), a text, or something else that is equal to no boolean. The file system is a function from the
text of a path to what is there. The reading of the mapping files is left out.

### `Model/OutputName.lean`

The names of output files.
Models src/Lavoisier/formats/abstractions.py:131-138 (`check_name_for_existence`).

A directory is the finite list of the names of its files (`is_file`); other processes that write into
it between the check and the writing are not modelled.

### `Model/Params.lean`

The unit and the comment of a parameter, and the names of the variables made for conversions of units.
Models src/Lavoisier/conversions/ECS2_to_ILCD1_conversion.py:609-628 (the parameter), 502-508 (the comment of its
variable), 561-571 (the text of a unit, the name of a conversion) and
src/Lavoisier/conversions/ILCD1_to_ECS2_conversion.py:278-304 (the variable read), 318-344 (the parameter made of it).
The name of the variable and its formula are those of Model/EcsVars.lean and Model/IlcdVars.lean, the texts those of
Model/LangText.lean.

Parameters: the text that `pint` prints for a unit (`f"{x:~}"`), or the error of an unknown unit.

Simplifications: a comment is given by its language and text; the running index of the comments is any list of indices
that increase from 1000 on (formats/helpers.py:25, 44-46). Uncertainties are entries of the comment.

### `Model/PlaceIndex.lean`

Numbers given to the texts of an ILCD data set that is moved to another list of elementary flows.
Models src/Lavoisier/conversions/ILCD1_to_ILCD1_conversion.py:423-435 (`place_index`).

The method changes the dictionary it is given in place and returns it (a new one for texts); the model
returns the result. Keys of a Python dictionary are distinct.

### `Model/Products.lean`

The products of an EcoSpold2 data set: the statement of their production volumes, the link to another activity, the
CAS number, the names and synonyms.
Models src/Lavoisier/conversions/ECS2_to_ILCD1_conversion.py:1078-1129 (`ProductionVolume`), 1144-1183
(`__init__` of intermediate flows), 1185-1208 (`get_flow_dict`), 1510-1521 (`IntermediateFlowDataSet`), the
attributes of an uncertainty (68-198) and src/Lavoisier/conversions/utils.py:49-65 (`ensure_list` without
`ensure_text`).

The value of a product is what `XmlStream` makes of its element. Parameters: `float` and the way a number is written
(`Env`), the name of the unit, and the result of reading and calculating the uncertainty (`Uncertainty`, `UncText`), of
which only the kind matters here.

Simplifications: the source of the volume and its variable (`EcsVars`, `Sources`), what is not converted
(`Unconverted`), the properties, the classification and the version of the flow.

### `Model/PropUnc.lean`

The uncertainties of the properties of an exchange of EcoSpold2 on their way to ILCD.
Models src/Lavoisier/conversions/ECS2_to_ILCD1_conversion.py:674-697 (the amount of a property), 195-229 and 419-459
(`multiply`, `divide`, `calculate_unc`), 772-868 (`get_ilcd_equivalent`), 914-922 (`get_dict`), 1034-1052
(`get_properties`), and 333-350, 499-505, 2061-2064 for the variable of a property.

It follows Verif.EcsProps, which leaves the uncertainties out, and uses the amounts of Verif.Uncertainty.

Simplifications: those of the two models; numbers are real numbers. The uncertainty is given as data; what happens to its
texts and comments is in Verif.UncText.

### `Model/PyVal.lean`

Python values handed to the validators, and `int(x)` on them.

### `Model/RefUnitTables.lean`

The flow property and unit group files that come with the package, one row a file, as they are copied
into the output of a conversion to ILCD: `src/Lavoisier/Lavoisier_Default_Files/ILCD_EF30_FlowProperties`
and `.../ILCD_EF30_UnitGroups`.

Generated from the files.  Of a flow property file the rows keep the name of the file (its UUID), the
version (`dataSetVersion`), the reference unit group (`referenceToReferenceUnitGroup`) and the name; of a
unit group file the UUID, the internal number of the reference unit (`referenceToReferenceUnit`) and for
every unit the internal number, the name and the mean value as written.  Comments, classifications and the
administrative sections are left out.

### `Model/RefUnits.lean`

The unit an amount is converted to, the flow property it is stated in, and the files copied for it.
Models src/Lavoisier/conversions/ECS2_to_ILCD1_conversion.py:512-524 (`to_ilcd_unit`), 692-750 (the reference of a
property), 870-910 (`get_unit_property`), 1396-1401 and 1404-1409 (`_options`, `all_data`), 1577-1592 (the reference),
1643-1648 (`make_dataset` for flow properties and unit groups), and src/Lavoisier/conversions/utils.py:85-104
(`copy_file`, `correct_dimensionality`), with the tables of conversions/units.py (Model/UnitTables) and the files that
come with the package (Model/RefUnitTables).

Simplifications: pint is a parameter, of which the text of the dimension of a unit (`dim`), its size in base units (`size`)
and the name of its base unit (`base`) are used; units with an offset (degrees Celsius) are not covered, and the check that
both units of `to` have the same dimension is left to pint. `uuid_from_string` is a parameter `hash`. What `Exception`
`get_unit_property` catches is not told apart. An error stops the conversion, so that the state after it is not kept. A
folder of the output is the list of the names of its files; copying a file again leaves it as it is.

### `Model/Refs.lean`

References to sources and contacts.
EcoSpold2 to ILCD: src/Lavoisier/conversions/ECS2_to_ILCD1_conversion.py:1397-1650 (`ReferenceConversion`).
ILCD to EcoSpold2: src/Lavoisier/conversions/ILCD1_to_ECS2_conversion.py:781-978 (`get_file`, the references to sources
and to contacts) and the fields they are used for (:762-772, 1688-1692, 1740-1747, 1855-1875, 1900-1906, 1919-1924).

Simplifications: a folder of the archive is the list of its entries in the order in which the system lists them; the
content of a file is given by its name. What is validated when the data set is written (lengths of texts) is in
`Validators`. The sets of identifiers already seen are those of the entries of the master data, which are made at the
same places; both are empty at the beginning of a data set.

### `Model/RepTexts.lean`

The texts of an ILCD data set about its method and its data sources, which all go to two fields of EcoSpold2.
Models src/Lavoisier/formats/helpers.py:42-55 (`text_add_index`, `text_dict_from_text`), the entries of the mapping in
src/Lavoisier/conversions/ILCD1_to_ECS2_conversion.py:1760-1764, 1771-1778, 1782-1805 and 1820-1835 for the fields
`samplingProcedure` and `extrapolations` of EcoSpold2, and what is written for them by
ECS2_to_ILCD1_conversion.py:2054-2059, 2203-2206 and 2355-2365.

Simplifications: the running number of `text_add_index` is shared with the texts of other fields; those are elements
`other` that take a number. The values read from the lines `Energy:` and `Original ecoinvent System Model:` are in
`Comments`; only the text left is kept here. Texts of more than 32000 characters are split when written, see
`LangText`.

### `Model/Reviews.lean`

Reviews.
EcoSpold2 to ILCD: src/Lavoisier/conversions/ECS2_to_ILCD1_conversion.py:1725-1803.
ILCD to EcoSpold2: src/Lavoisier/conversions/ILCD1_to_ECS2_conversion.py:1143-1226.

Simplifications: the details of a review in English are a list of paragraphs; that entries of one language are joined by
line feeds in the order of their indices is in `LangText`, and the date and the version have the lowest indices. Details
in other languages are written without these lines and are not shown. The numbers of the version are given as such, not as
texts. `fromisoformat` with the format in which a date is written is the parameter `date`. Scopes and data quality
indicators, which only become text, are left out.

### `Model/RoundIlcd.lean`

The exchanges of an ILCD data set converted to EcoSpold2, and the result converted to ILCD again.
Puts together Model/IlcdFlows (the exchanges to EcoSpold2) and the conversion to ILCD of Model/RoundTrip. What stands between them is
the order of the exchanges in the file (src/Lavoisier/data_structures/ECS2_structure.py:814-821), the uncertainty as it is written
(src/Lavoisier/conversions/ILCD1_to_ECS2_conversion.py:128-172) and read (src/Lavoisier/conversions/ECS2_to_ILCD1_conversion.py:104-118),
and the attributes of an exchange that are read (ECS2_to_ILCD1_conversion.py:929-952, 978-994).

Simplifications: those of the models named. How a number is written is a parameter (`shown`). Sources and properties of the exchanges
are taken from outside (`Extras`). An exchange written has no classification (the code for it, ILCD1_to_ECS2_conversion.py:1013-1054, is
a comment) and no property of allocation.

### `Model/RoundTrip.lean`

The exchanges of an EcoSpold2 data set converted to ILCD, and the result converted to EcoSpold2 again.
Puts together Model/EcsFlows (the exchanges there), Model/FlowFiles (the flow data sets and the references to them),
Model/RefUnits (the units and flow properties) and Model/IlcdFlows with Model/Refs (the exchanges back and the finding of files).
The parts that stand between them are src/Lavoisier/conversions/ECS2_to_ILCD1_conversion.py:1187-1207 (what is put into
the file of a product), 2073-2084 (the amounts) and src/Lavoisier/conversions/ILCD1_to_ECS2_conversion.py:94-110 (the
parameters of an uncertainty), 388-413 (what is read of an exchange), 803-831 and 991-1020 (the file of a flow and what is
read of it).

Simplifications: those of the models named. How a number is written is a parameter (`shown`); the theorems ask that the numbers
of the data set are read as they were written (`Spec.Legible`).
Comments and variables of the exchanges, and distributions ILCD does not know, are taken from outside (`Extras`); they are in
Model/Comments, Model/IlcdVars and Model/UncText. Elementary flows have the files that come with the package.

### `Model/Schema.lean`

The `VALID` tables of both formats, transcribed from
src/Lavoisier/data_structures/ECS2_structure.py and ILCD1_structure.py, one definition per class,
with inherited tables (`A.VALID | {...}`) merged as `dict.__or__` does. Validator classes are given
by name; `return_enum(X)` is `Enum X` and `return_enum(X, list_=True)` is `EnumList X`.

Not transcribed: `ILCD1ToECS2DataNotConverted`, `ECS2ToILCD1DataNotConverted` and their nested
classes, whose fields have no `order` and are never written with `get_dict`.

### `Model/Sentences.lean`

Cutting a text into sentences.
Models src/Lavoisier/data_structures/utils.py:13-50 (`split_into_sentences` and its patterns).

The function is a chain of `re.sub` and `str.replace` calls. None of the patterns has a star, so a
pattern is a row of places, each with a list of alternatives tried in order (with a way back), and
every alternative is a row of character classes. The replacement is given place by place: a place is
either kept (`\1`, `\2`, or a character that the replacement repeats) or replaced by a fixed text.
The fixed texts contain the marks `<prd>` and `<stop>`, which are ordinary text to the code and to
the model (`render`).

### `Model/Session.lean`

What a conversion leaves behind in the classes of the program, which all converters of a process share.
Models, for EcoSpold2 to ILCD, src/Lavoisier/conversions/ECS2_to_ILCD1_conversion.py:1826-1839 (`delete`), 1890-1899
(`end_conversion`), 1925-1938 (`reset_conversion` of the basic mapping), 2050-2116 (`reset_conversion` and
`end_conversion` of the mapping); for ILCD to EcoSpold2, src/Lavoisier/conversions/ILCD1_to_ECS2_conversion.py:1262-1278,
1327-1344, 1448-1537; and the handling of errors in src/Lavoisier/converter.py:236-242, 254-280.

Simplifications: of an exchange only what decides about errors and what stays is kept. What goes wrong while a file is
read, in a formula, when amounts are added or when the data set is written is given with the file (`fails`, `broken`,
`bad`, `unwritable`). Amounts that belong to no exchange are left out: an error in their formulas is that of an exchange.
The classifications and the texts that both passes set are not unique in the format and set without error.

### `Model/Settings.lean`

The parts of a converter that a user may exchange, and the text a converter prints.
Models src/Lavoisier/converter.py:46-56 (the parts at the beginning), 70-78 (`__str__`), 87-153 (the properties and
their setters), the places of converter.py:193-225 where the parts are used (`_get_pre_instance_file_information`,
`start_conversion`), src/Lavoisier/formats/configurations.py:24-109 (the parts of the formats, `DefaultMappingConfig`),
src/Lavoisier/formats/abstractions.py:13-18 (`AbstractDataclass`), src/Lavoisier/conversions/factories.py:67-75
(`get_mapping`) and src/Lavoisier/data_structures/factories.py:12-36 (`StructureFactory`).

Simplifications: a Python object is a class, an instance, a dictionary with texts as keys, a dictionary from versions to
structures, or `None`; of a class or an instance the base class is given, and of an instance whether it can be called
and subscripted. `isinstance` of a class is false (no metaclasses derived from the templates), classes cannot be
subscripted (no `__class_getitem__`). The elementary flow table is in `Model/MapFile`, the options are in
`Model/Options`. Of `__str__` the lines of the options and the step that can fail are modelled. `capitalize` is that of
ASCII.

### `Model/Shapes.lean`

The forms in which a text of an ILCD file reaches the conversion, and the ways the conversion reads it.
Models src/Lavoisier/formats/helpers.py:42-49 (`text_add_index`), src/Lavoisier/conversions/utils.py:49-65
(`ensure_list`), src/Lavoisier/conversions/ILCD1_to_ECS2_conversion.py:1630-1633 (`ensure_dict`), the entries of
the mapping from ILCD to EcoSpold2 that read texts (1653-1932) and the places that read a text inside an
exchange, a reference, a review, a variable or another file (lines 71-85, 294-300, 398-405, 457, 477, 599, 849,
883, 962-963, 1177-1188).

A text is an element that may have the attribute `xml:lang` and no others; what the stream makes of it is
`XmlStream`. Without `xml:lang` it is a `str` and no dictionary.

Simplifications: what is done with the text after it has been read (other modules); the running number.

### `Model/Stats.lean`

The numbers "converted/found" at the end of the log of a conversion of EcoSpold2 to ILCD.
Models src/Lavoisier/conversions/ECS2_to_ILCD1_conversion.py:165-184 (`get_uncertainty`), 330-352 (`create`), 454-507
(`construct_variable`), 626-631 (parameters), 810-835 (the estimated water content), 915-923 (`Property.get_dict`), 948-962
and 1034-1052 (exchanges and their properties), 1118-1132 and 1162-1179 (production volumes and products), 1280-1300
(elementary exchanges), 1890-1924 (`end_conversion`), 1964-2000 (`get_statistics`), 2049-2105 (`reset_conversion`),
2161-2162 (`add_stat`), 2302-2345 (the paths that count).

Simplifications: of a value the kind of its uncertainty and the names of the variables asked for are kept; whether a
property is kept and keeps its uncertainty is given (Model/EcsProps decides the former). Sources, contacts, reviews and
classifications are not counted here. Exchanges of group 4 among the products are not added to elementary ones. Nothing fails.

### `Model/TextImage.lean`

Comments of an EcoSpold2 data set (texts with variables, and images) on their way to ILCD.
Models src/Lavoisier/conversions/ECS2_to_ILCD1_conversion.py:2118-2160 (`ECS2TTextAndImage`), the icon of a data set,
:2216-2227, and src/Lavoisier/formats/helpers.py:119-125 (`ECS2Helper.get_text_uuid`).

Simplifications: of a text only `#text` is looked at, its other keys (index and language) are an arbitrary value that is
carried along. The random generator is a parameter: `rdn.seed(n)` followed by `getrandbits(128)` and the writing of
the UUID is a function of `n`. CPython refuses to read numbers of more than 4300 digits since version 3.11; here
every number is read, so addresses of more than about 1400 characters are not covered.

### `Model/TextSplit.lean`

Splitting of texts that exceed the limit of a field.
Models src/Lavoisier/data_structures/utils.py:52-87 (`text_to_list`).

The model starts from the list `n` of sentences that `split_into_sentences` returns (line 66), which
is arbitrary here; `Model/Sentences.lean` models how they are found.

### `Model/UncText.lean`

The texts of an uncertainty: pedigree scores, basic variance, comments and the distributions that ILCD does not know.
Models the comments written by src/Lavoisier/conversions/ECS2_to_ILCD1_conversion.py:71-101, 165-171, 185-192
(`ECS2ToILCD1UncertaintyConversion`) into the comment of an exchange (:945-954, data_structures/ILCD1_structure.py:453),
and their reading by src/Lavoisier/conversions/ILCD1_to_ECS2_conversion.py:63-90, 112-139, 160-172
(`ILCD1ToECS2UncertaintyConversion`). The joining of the texts is the one of Model/LangText.lean.

Simplifications: `float` and the writing of a float are parameters. The comparison of the variances (:86-90) only writes a
warning and is left out, but not the errors of the values it reads. The calculation with the numbers is in
Model/Uncertainty.lean.

### `Model/Uncertainty.lean`

Amounts and their uncertainty.
Models src/Lavoisier/conversions/ECS2_to_ILCD1_conversion.py:65-192 (`ECS2ToILCD1UncertaintyConversion`),
195-229 and 385-524 (`Amount`, `ECS2ToILCD1Amount`: unit conversion, `multiply`, `divide`, `sum_`,
`calculate_unc`, `to_ilcd_unit`), 1304-1321 (`get_elementary_info`: the factor of the elementary flow mapping), and
src/Lavoisier/conversions/ILCD1_to_ECS2_conversion.py:61-173, 194-260
(`ILCD1ToECS2UncertaintyConversion`, `ILCD1ToECS2Amount`).

Simplifications: numbers are real numbers, so rounding and overflow of floats are left out. A unit
conversion by pint is the multiplication by a factor (no unit of the program has an offset in its use
here). The operations of OpenTURNS on two lognormal or two normal distributions are taken to add the
variances, which is what that library documents. Comments and warnings are left out, and so is the
pedigree matrix, which does not take part in the calculation.

### `Model/Unconverted.lean`

The record of the data of an EcoSpold2 file that have no place in ILCD.
Models src/Lavoisier/data_structures/ILCD1_structure.py:559-650 (`LIST`, `ECS2ToILCD1DataNotConverted` with its
classes `Flow`, `Property`, `ProductionVolume`, `Parameter`), the assignment of a value to them
(src/Lavoisier/data_structures/main.py:63-101 and 120-135) and what is assigned:
src/Lavoisier/conversions/ECS2_to_ILCD1_conversion.py:636-642, 757-769, 1054-1071, 1137-1143, 1230-1238,
1332-1335, 1717-1722, 1788-1792 (the methods `get_not_converted`) and the entries of the mapping that set a
field of `NotConverted`, lines 2178-2301, 2349-2354, 2381-2382, 2404-2448 and 2462-2482.

The record itself is never written; what matters to the outside is whether an assignment fails, since this
ends the conversion.

Simplifications: of an element only its attributes (all texts) and, where it matters, the number of its
children are kept; the fields of the classes that hold records (`flows`, `parameter`, `properties`,
`productionVolume`), which are never assigned, are left out; which texts are numbers (`float`) is a
parameter.

### `Model/UnitNames.lean`

How the text of a unit in an EcoSpold2 file is read as a unit of `pint`.
Models src/Lavoisier/conversions/ECS2_to_ILCD1_conversion.py:527-559 (`unit_name_correction`), its second use on the
units named in a formula (lines 270-277, 200, 416-417), and the names defined by `units_def`
(src/Lavoisier/conversions/units.py:9-136, used in lines 61-62 and 554).

`pint` itself is outside: whether it knows a text as a unit is a parameter. Of `units_def` the keys and the names they
define are kept. The two regular expressions look for letters followed by a digit from 2 to 4 that no digit follows; as the
letters are taken as many as possible, and a digit is no letter, the last letter alone decides, and this is how they are
written here. A digit is one of 0 to 9.

Simplification: values that are no texts, which are given back as they are (529-530).

### `Model/UnitTables.lean`

The tables of units and flow properties, transcribed from src/Lavoisier/conversions/units.py (generated from its text).
A table is a list of pairs in the order of the source, without the keys that a later pair replaces. Of the tuples
only the parts that the code reads are kept.

### `Model/Uuid.lean`

UUID conversion between EcoSpold 2 and ILCD identifiers.
Models src/Lavoisier/conversions/utils.py:19-35 (`uuid_from_uuid`).

The AES block function is a parameter: `E key block` is the first byte of the AES encryption
of `block` (16 bytes) under `key`. Nothing is assumed about it. The CFB mode with its default
8-bit segments is modelled byte by byte as in the documentation of the `Crypto.Cipher` library.

### `Model/Validators.lean`

The validators of single values.
Models src/Lavoisier/data_structures/validators/general_validators.py:18-178 and the classes built
from them in ECS2_validators.py and ILCD1_validators.py. A validator object is `Option α`: the
attribute `_x`, absent before the first `add`.

### `Model/XmlStream.lean`

Reading of XML files.
Models src/Lavoisier/formats/utils.py:55-123 (`XMLStreamIterable`).

The parser (`etree.iterparse`) is not modelled: its result is the sequence of start and end events of
a document, and the document given by a tree. Comments and processing instructions are dropped by the
parser. A parsing error ends the reading with an exception of the environment.

### `Model/XmlFile.lean`

The documents the output formats write.
Models src/Lavoisier/data_structures/ILCD1_structure.py:513-533 and 553-556, ECS2_structure.py:877-893 (`get_dict` of the
structures) with formats/ILCD1_format.py:97-104 and formats/ECS2_format.py:31-38, up to the text handed to the file.

Simplification: the texts are characters; their encoding by `open(..., 'w')` is that of the platform and is not
modelled.

### `Model/XmlParse.lean`

Reading the text of an XML file, as `etree.iterparse` does for
src/Lavoisier/formats/utils.py:57-64 and `xmltodict.parse` for conversions/ECS2_to_ILCD1_conversion.py:1542-1575.

The parser (expat, with the tree builder of ElementTree) is not part of the package: this is XML 1.0 and the
namespaces of XML for documents of elements, attributes, texts and references to characters. Comments, processing instructions,
CDATA sections, document types and names outside ASCII are left out: here a document with one of them is an
error. The file is read in text mode, so that its characters are given.

### `Model/XmlWrite.lean`

Writing of XML files.
Models the calls of `xmltodict.unparse(..., pretty=True, newl='\n', indent="  ")` in
src/Lavoisier/formats/ILCD1_format.py:97-104, formats/ECS2_format.py:31-38 and
conversions/ECS2_to_ILCD1_conversion.py:1458-1463.

`xmltodict` is not part of the package: what is modelled is its function `unparse` (`_emit` and the
`XMLGenerator` of the standard library it drives) for the options of these calls. Attributes are the keys
that begin with `@`, the key `#text` is the text of an element, every other key is a child element, a list
is a row of elements of the same name. The text of an element is written after its children. `escape` and
`quoteattr` are those of `xml.sax.saxutils`.

Simplifications: of iterable values only lists, of texts under `#text` only texts and `None` (`get_dict`
puts `str(v)` there, data_structures/main.py:143). The text of a number is a parameter.

### `Model/ExchComments.lean`

The comment of an exchange: comments, tags, uncertainty and production volume.
Models src/Lavoisier/conversions/ECS2_to_ILCD1_conversion.py:944-954 (comments, tags and uncertainty of an exchange), 1122-1124
(comments of the production volume), 2087-2099 (the comments of exchanges that are summed), and
src/Lavoisier/conversions/ILCD1_to_ECS2_conversion.py:403-408, 719 (the comment of an exchange of ILCD).

The value of an exchange is what `XmlStream` makes of its element; the texts of an uncertainty are those of `UncText`.

Simplifications: all the texts are read before the first is given to the field, so that another error may come first. The
running number of `text_add_index` is a parameter: one for the comments and one for those of the production volume, which
come later (comments of properties are numbered in between).

### `Model/ReviewTexts.lean`

The texts of a review of ILCD in EcoSpold2: type, scopes, indicators of quality and details.
Models src/Lavoisier/conversions/ILCD1_to_ECS2_conversion.py:1158-1184, 1205-1219 (`ILCD1ToECS2ReviewConversion`),
src/Lavoisier/conversions/utils.py:49-65 (`ensure_list` without `ensure_text`), and
src/Lavoisier/data_structures/ECS2_structure.py:227-231, 663-664 (the fields).

The value of a review is what `XmlStream` makes of its element. Date, version and reviewers are in `Reviews`.

Simplifications: attributes are texts, as they are in every value that is read from a file. All the texts are made before
the first is given to the field, so that another error may come first.

### `Model/ReviewDetails.lean`

The texts of a review of EcoSpold2 in ILCD.
Models src/Lavoisier/conversions/ECS2_to_ILCD1_conversion.py:1741-1744, 1759-1770, 1794-1799 (`ECS2ToILCD1ReviewConversion`), 2124-2138
(the texts of `ECS2TTextAndImage`), and src/Lavoisier/data_structures/ILCD1_structure.py:320, 322 (the fields).

The value of a review is what `XmlStream` makes of its element. Kind of review and reviewers are in `Reviews`, images in
`TextImage`.

Simplifications: attributes are texts, as they are in every value that is read from a file. Images, which come between the
texts and may stop the conversion, are left out.

### `Model/LeftOut.lean`

The record of the data of an ILCD process that have no place in EcoSpold2.
Models src/Lavoisier/data_structures/ECS2_structure.py:894-937 (`LIST`, `ILCD1ToECS2DataNotConverted`), the
assignment of a value to one of its fields (src/Lavoisier/data_structures/main.py:63-90) and the entries of the
mapping of src/Lavoisier/conversions/ILCD1_to_ECS2_conversion.py that make one: lines 1672-1673, 1680-1682,
1696-1700, 1723-1725, 1729-1731, 1735-1737, 1757-1759, 1779-1781, 1807-1812, 1817-1819, 1840, 1847, 1863,
1864-1869, 1876-1881, 1890-1896 and 1907-1915. The record is made once (1306) and kept for all files.

Simplifications: what the entries do besides (`identifierOfSubDataSet` and `timeStamp` also set a field of the
output, the entries of `completeness` and `compliance` write a warning) is left out.

### `Model/Carried.lean`

The files an archive of ILCD gets when only its list of elementary flows is changed.
Models src/Lavoisier/formats/ILCD1_format.py:56-98 (`_additional_files`, `start_conversion`, `write_process`),
src/Lavoisier/conversions/ILCD1_to_ILCD1_conversion.py:376-384 (`set_file_info`) and the places of the files saved at
324-343 (`save_file`, `save_original`), with the order of converter.py:217-242.

Simplifications: the contents of files are values of a type that is not looked into; those of the package are a parameter.
Of the unpacked archive only the folders in its root and what is directly in them are kept; a folder in a folder is marked
as such. The files saved for the exchanges of a data set are given with their folders (what they are is in
Model/IlcdList); that no folder of the archive has the name of a file saved is taken for granted. The log in the root of
the archive is left out. An error stops the conversion, and the archive is not written (Model/Driver).

### `Model/ListSession.lean`

The parameters of ILCD data sets that are moved to another list of elementary flows, from data set to data set.
Models src/Lavoisier/conversions/ILCD1_to_ILCD1_conversion.py:56 (`math_rel`, a list of the class), 200-201 (the exchange is
put into the structure), 345-421 (`ILCD1ToILCD1FieldMapping`: there is no method `delete`), 449-450 and 455-456 (the
entries of the mapping) and src/Lavoisier/converter.py:236-242 and 257-280 (the end of a data set, and errors).

`math_rel` belongs to the class of the exchanges, so it lives as long as the program. It is set when the element of the
relations has been read, which stands before the exchanges, changed by the exchanges, and written and emptied at the end of
the data set.

Simplifications: a data set is given by what concerns the parameters. The errors of other elements are given by their
place: before the mapping is made, before the relations, or between the relations and the exchanges. Whether the structure
takes an exchange or a parameter is a parameter, and so is what an exchange that fails leaves of the list.

### `Model/CopyFile.lean`

Copying the files of the package into an archive, and fetching the elementary flows from the repository.
Models src/Lavoisier/conversions/utils.py:76-89 (`_copy_file`, `copy_file`) with the loop of `shutil.copyfileobj`, and
src/Lavoisier/download_external_files.py:10-26 (`download`).

Simplifications: a path is the list of its parts; links, permissions and a full disk are left out. An identifier is one
part of a path. `fs.get` of fsspec is modelled from its documentation: the common beginning of the remote paths is
replaced by the target. A call of `download` may succeed, fail after some files, or end with the process.

### `Model/Dates.lean`

The reading of the dates of the time period.
Models src/Lavoisier/conversions/ECS2_to_ILCD1_conversion.py:2164-2170 (`get_time_object`) and 2275-2280, with
`time.strptime` of the library of Python for the three formats used there: the fields are those of the regular
expressions of `_strptime.py` for %Y, %m, %d, %H, %M, %S and %f, the letters T and Z are matched without regard to
case, the whole text has to be matched, and the day has to exist in the calendar.

Simplifications: digits are those of ASCII (Python also takes the decimal digits of other scripts). The text is cut
at the separators of the format, which occur in none of the fields. Only the day of the result is kept, the code uses
no more than the year.

## Parts of the code that are not modelled

- The logging and the console output
  (`Print`), except where a report is the only trace of an exchange that is not converted.
- The C libraries: lxml, pint, OpenTURNS, PyCryptodome.
- In `XmlWrite` and `XmlParse`: `unparse` of xmltodict and the parser are libraries; they are modelled from their documentation, for
  the options the code uses and for the part of XML that is written. The encoding of the characters by `open(..., 'w')` is that of the
  platform and is not modelled, nor is its translation of line ends. Declarations of the prefixes `xml` and `xmlns` and of empty
  namespaces are not checked.
- Rounding and overflow of floating point numbers.
- Concurrent use of a directory by another process.
- Field mappings that copy one value to one field without computing anything: what is written then follows from
  the validator of the field, which is modelled.
- In `Session`: of exchanges and variables only what decides about errors and what stays; errors of reading a file, of
  a formula, of a sum and of writing a data set are inputs.
- In `Citations`: which characters are digits (`\d`) is a parameter with the properties used (ASCII digits meet them).
- In `Refs`: the content of a source or contact file is given by the fields that are read from it; a folder is the list
  of its entries as the system lists them.
- In `Reviews`: scopes and data quality indicators, which become text only; how a date is read (`fromisoformat`) is a parameter.
- In `Admin`: only the English text about access. In `Dates`: the decimal digits of other scripts.
- In `IlcdList`: which default files there are and what they contain; how a file is written and read again (its fields are
  given); the fields of an exchange that are copied unchanged.
- In `PlaceIndex`: which fields the structure accepts; a field that it does not know stops the conversion (`AttributeError`).
- In `TextImage`: the random generator; the limit of CPython on the number of digits of a number read.
- In `RepTexts`: the elements between the texts considered, apart from the running numbers they take; the writing of the XML file in between (a text is read as it was written).
- In `Classes`: classifications without system, value or identifier (a `KeyError`), the statistics; of the mapping file only the
  pairs of class identifier and class name that occur in it (5391 rows, 95 pairs) and the rule that a row is found by its key.
- In `FlowFiles`: what is in a flow data set apart from version and properties (the rest is one value), and how the properties
  are computed (`EcsProps`); the folders other than `flows`.
- In `Sentences`: nothing of `split_into_sentences`; a pattern is written as a row of places instead of the text of a regular
  expression, which is possible because none of the patterns has a star. `TextSplit` states its theorems for any list of sentences.
- In `RefUnits`: pint (the text of a dimension, sizes and base units are parameters; units with an offset are left out) and the
  hash `uuid_from_string` (its values for the eighteen dimensions are a hypothesis, which was checked with the hash of Python);
  of the files of the package only what `RefUnitTables` keeps.
- In `Naming`: the tags and the inheritance depth set by the same entries, the text of the general comment (`Comments`), the
  elements of the file in between, `uuid_from_string` and `uuid_from_uuid` (`Uuid`), the reading of dates.
- In `Archive`: versions and locations of references, documents that are no data sets, the processes as targets of references; the
  94062 elementary flow files are a parameter of which the form of the references is assumed (`Real`, checked on all files).
- In `Inputs`: the unpacking of an archive into a temporary directory and the order in which its files are listed.
- In `Unconverted`: names and comments of scenarios, the version and file information (texts that are always there), the record of uncertainties.
- In `Shapes`: what is done with a text after it has been read; attributes other than `xml:lang`.
- In `UnitNames`: whether `pint` knows a text, and how large a unit is; its grammar (`Reads`) is a part of the specification. Values that are no texts.

## Properties

196 properties; claims: 44 proved, 152 partial. A claim is partial when the statement as a user would want it is not true of the code, or true only under conditions; then the true part is proved (names ending in `_partial`) and the failure is proved too, by a witness or for all inputs.

### C01 UUID conversion round trip

Converting the UUID of a dataset from EcoSpold 2 to ILCD and converting the result back (or the other way round) returns the UUID one started from, in lower case.

Approach: `Uuid`: CFB-8 over an arbitrary block cipher (parameter), hex coding, digit removal and re-insertion. Round trip by induction over the byte list.

Status: **proved**. CFB-8 over an arbitrary block cipher; both directions.

Theorems: `Uuid.uuid_roundtrip_ecs_ilcd_ecs`, `Uuid.uuid_roundtrip_ilcd_ecs_ilcd`, `Uuid.uuid_roundtrip_exact`

### C02 UUID conversion is injective

Two different EcoSpold 2 datasets never receive the same ILCD UUID (and conversely), so converted data sets never silently replace each other.

Approach: Corollary of C01.

Status: **proved**. 

Theorems: `Uuid.uuid_injective`

### C03 UUID shape, version and variant digits

The converted identifier is always a lower-case hexadecimal 8-4-4-4-12 UUID, and its version digit (13th) and variant digit (17th) are those of the original.

Approach: Same model; lengths and alphabet by induction on hexlify.

Status: **proved**. 

Theorems: `Uuid.uuid_shape`

### C04 Malformed UUIDs are rejected

A text that is not a UUID is rejected with an error instead of being converted into a UUID of another object.

Approach: Same model; error branches for short and non-hex texts, and a witness of an over-long text that is accepted.

Status: **partial**. False of the code: over-long texts are accepted. The exact acceptance condition is proved.

Theorems: `Uuid.uuid_malformed_accepted`, `Uuid.uuid_accepts_iff_partial`, `Uuid.uuid_other_kind`, `Uuid.uuid_other_key`, `Uuid.lavKey_bytes`

### C05 Split texts respect the limit

When a text exceeds the length limit of an EcoSpold/ILCD field and is split, every piece produced has at most the limit number of characters. False of the code only for the limit 50, with which a longer sentence stops the conversion.

Approach: `TextSplit`: the chunk loop and the `optimize` generator; the sentences are any list here; `Sentences` (C103) models how they are found. Invariants on the carried word.

Status: **partial**. Proved for every limit but 50 (split_within_limit_iff): with a limit of 50 and a longer sentence the conversion stops, otherwise every piece is within the limit. For the limits below 50 that is because longer sentences are left out (C06).

Theorems: `TextSplit.pieces_within_limit`, `TextSplit.limit_fifty_fails`, `TextSplit.split_within_limit_iff`

### C06 Splitting a text loses no content

Splitting a long text into several entries keeps every word of the text, in order. False of the code when a single sentence is longer than the limit: the last word of it is dropped (and for limits of 50 or less the sentence disappears or the conversion crashes). True whenever no sentence exceeds the limit.

Approach: Same model; witnesses for the lost word, plus the no-over-long-sentence case.

Status: **partial**. False of the code for a sentence longer than the limit (witnesses); proved when no sentence exceeds the limit, and nothing is invented in general. For the limits below 50 exactly the sentences within the limit are kept (short_limit_kept, short_limit_loss_iff).

Theorems: `TextSplit.last_word_lost`, `TextSplit.short_limit_loses_all`, `TextSplit.content_kept_partial`, `TextSplit.content_sublist_partial`, `TextSplit.short_limit_kept`, `TextSplit.short_limit_loss_iff`

### C07 One entry per language

A multi-language field is written with exactly one entry per language used, the entries sorted by language code.

Approach: `Validators.Lang`: state = list of (index, lang, texts), add and end. Invariant over the history of additions.

Status: **partial**. Proved for all histories when no text has to be split; false otherwise (witness), and the general form with pieces is proved.

Theorems: `LangText.multilang_written_partial`, `LangText.multilang_pieces`, `LangText.one_language_two_entries`

### C08 Multi-language text is kept in index order

For each language the text written is made of the texts added for that language, ordered by paragraph index (additions to the same index joined by the separator in order of addition, paragraphs joined by newline); nothing is dropped or duplicated.

Approach: Same model, refinement to a specification that works on the history.

Status: **partial**. Whole texts are exactly those of the specification, for every history; splitting into pieces is C05 and C06.

Theorems: `LangText.multilang_written_partial`, `LangText.multilang_pieces`, `LangText.plain_written`, `LangText.second_text`, `LangText.unlimited_iff`

### C09 Length limits of fields are enforced

With limits on, a limited text field that is written never exceeds its limit: the conversion fails with ValueError instead; with `ignore_limits` the text is always written unchanged.

Approach: `Validators.Lim`.

Status: **proved**. 

Theorems: `Validators.limited_text`, `Validators.limit_enforced`, `Validators.limit_ignored`, `Validators.limit_enforced_last`

### C10 Enumerated fields only hold listed values, each once

An enumerated list field holds only values of its enumeration, without duplicates, in order of first addition; anything else is rejected and leaves the field unchanged.

Approach: `Validators.Enum`, invariant over histories.

Status: **proved**. 

Theorems: `Validators.enum_content`, `Validators.enum_only_listed`, `Validators.enum_reject`, `Validators.enum_list_filled`, `Validators.enum_single`

### C11 The latest review date is kept whatever the order

The date of last revision written is the latest of the dates added, independently of the order in which the reviews are read.

Approach: `Validators.Cmp`, fold = maximum, permutation invariance.

Status: **partial**. True when all dates are in one time zone; false in general because wall clocks are compared (witnesses). The exact conditions for both parts of the statement are review_date_order_iff and review_date_latest_iff; the date kept is the first of those with the latest clock reading.

Theorems: `Validators.review_date_latest_clock`, `Validators.review_date_latest_partial`, `Validators.review_date_not_latest`, `Validators.review_date_order_dependent`, `Validators.review_date_first`, `Validators.review_date_order_iff`, `Validators.review_date_latest_iff`

### C12 Numeric fields accept exactly their documented range

Integer code fields accept exactly the listed codes, four digit fields exactly non-negative four digit numbers, Int6 fields exactly 0..999999, percentages exactly 0..100; all others raise ValueError.

Approach: `Validators.Num`, decision logic for all integers, decimal digits for len(str(x)).

Status: **partial**. Exact for integers and texts of integers; fractions are cut and NaN is an accepted percentage (witnesses).

Theorems: `Validators.code_fields_exact_partial`, `Validators.year_exact_partial`, `Validators.int6_exact_partial`, `Validators.int1_exact_partial`, `Validators.number_text_same`, `Validators.fraction_is_cut`, `Validators.percent_exact_partial`, `Validators.percent_nan_accepted`, `Validators.number_read_iff`, `Validators.percent_of_bool`, `Validators.list_keeps_all`

### C13 Pattern fields accept exactly the pattern

A UUID, version or CAS field accepts exactly the texts of its format. False of the code: the pattern is only matched as a prefix, so trailing garbage is accepted. True: every accepted text starts with a well-formed value, and every text with no well-formed prefix is rejected.

Approach: `Validators.Pattern`, an explicit matcher for the regular expressions used, prefix semantics of re.match.

Status: **partial**. False of the code as stated; the exact accepted language is proved.

Theorems: `Validators.pattern_accepts_iff`, `Validators.pattern_rejects_iff`, `Validators.uuid_accepts_iff_partial`, `Validators.version_accepts_iff_partial`, `Validators.cas_accepts_iff_partial`, `Validators.pattern_trailing_garbage`, `Validators.pattern_not_exact`, `Validators.variable_name_accepts_iff`, `Validators.variable_name_limit`

### C14 Indexed paragraphs are written in index order

An EcoSpold text-and-image field lists its paragraphs by increasing index. False of the code for ten or more paragraphs (order is lexicographic: 10 before 2); true while all indices have one digit.

Approach: `Validators.Lang`, decimal comparison; witness for 10 < 2.

Status: **partial**. True for one-digit indices; false for every field with a paragraph from 2 to 9 and one from 10 to 19 (later_first). indexed_by_digits gives the order that is used, for every history: that of the decimal digits as a text.

Theorems: `LangText.indexed_in_order_partial`, `LangText.tenth_before_second`, `LangText.images_in_order`, `LangText.indexed_by_digits`, `LangText.later_first`

### C15 Named text variables are unique

A field with named texts never holds two entries of the same name, whatever is added; adding a used name raises ValueError.

Approach: `Validators.Named`, invariant over histories.

Status: **partial**. The field never holds a name twice; what is written can repeat one when a text is split (witness).

Theorems: `LangText.named_unique`, `LangText.used_name_rejected`, `LangText.used_name_value_error`, `LangText.named_written_partial`, `LangText.written_name_twice`

### C16 Unknown fields are rejected without effect

Setting a field that the format does not define raises AttributeError and leaves the data set unchanged.

Approach: `DotDict`: schemas and values as inductive types, set/get/get_dict.

Status: **proved**. 

Theorems: `DotDict.unknown_field_rejected`, `DotDict.only_known_fields`, `DotDict.absent_group_is_empty`, `DotDict.sign_left_out`

### C17 A single-valued field is set at most once

A field that occurs at most once in the format keeps its first value: a second assignment raises ValueError and never replaces it.

Approach: `DotDict`, induction over assignment histories.

Status: **proved**. For every path, history and format.

Theorems: `DotDict.single_value_kept`, `DotDict.second_value_rejected`, `DotDict.two_values_rejected`

### C18 A failing assignment has no effect

An assignment that raises an error leaves the data set as it was. False of the code: assigning a list of two values to a single-valued field stores the first value and then raises. True for every assignment of one value.

Approach: `DotDict`, witness and one-value case.

Status: **partial**. False of the code for lists of values; the exact effect is proved.

Theorems: `DotDict.failed_assignment_leaves_values`, `DotDict.failed_assignment_unchanged_partial`, `DotDict.failed_assignment_prefix`

### C19 Mandatory fields are present in every written data set

A data set is written only if all mandatory fields are present at every level of nesting; otherwise AttributeError is raised.

Approach: `DotDict`, structural induction on the nested value.

Status: **proved**. 

Theorems: `DotDict.written_iff_complete`, `DotDict.missing_mandatory`

### C20 Fields are written in the order of the format

The children of every element are written in the order number of the schema, at every depth, and values of repeated fields keep their order of addition, none lost.

Approach: `DotDict`, stable sort lemmas, structural induction.

Status: **proved**. 

Theorems: `DotDict.written_in_order`, `DotDict.order_independent_of_assignment`, `Schema.ecs2_order_independent`, `Schema.ilcd_order_independent`

### C21 Distinct fields get distinct XML names

In both formats no two fields of one element are written under the same XML name, so no field overwrites another one in the output.

Approach: `Schema`: both VALID tables transcribed, `decide +kernel` over the whole table.

Status: **proved**. Over the transcribed field tables of both formats.

Theorems: `Schema.ecs2_names_distinct`, `Schema.ilcd_names_distinct`, `Schema.formats_good_order`, `Schema.formats_closed`

### C22 Every requested XML element is delivered once, in document order

Reading a data set calls the mapping of a field exactly once for each XML element (and attribute) on the field's path, in document (closing) order, and for nothing else.

Approach: `XmlStream`: trees to start/end events, the reader as a state machine, equality with a recursive specification.

Status: **proved**. For documents whose names are XML names.

Theorems: `Xml.elements_delivered`, `Xml.attributes_delivered`, `Xml.read_in_closing_order`, `Xml.stream_prefix`

### C23 Repeated XML children all survive

In the value handed to a field mapping, the children with one tag appear as many times and in the same order as in the file, at every depth.

Approach: `XmlStream`: elem2dict as a recursive function.

Status: **proved**. For documents in which no element has two attributes of the same local name (otherwise one is lost, witness).

Theorems: `Xml.element_represented`, `Xml.children_kept`, `Xml.attribute_lost`

### C24 No existing file is overwritten

The name chosen for an output file is never the name of an existing file; it is the base name itself when free, else the one with the smallest free number.

Approach: `Output`: name search over an arbitrary finite set of files.

Status: **proved**. 

Theorems: `Output.checkName_fresh`, `Output.checkName_minimal`

### C25 One output per input in to_file mode

Converting a directory in to_file mode writes, for each input file in order, one output holding the data of that file only, all under different names.

Approach: `Driver`: the convert loop as a state machine over files, output directory and data set object.

Status: **proved**. 

Theorems: `Driver.to_file_outputs`

### C26 One database in to_database mode

Converting a directory of EcoSpold 2 files in to_database mode produces one archive containing the data set of every input file.

Approach: `Driver`.

Status: **partial**. True exactly when the identifiers of the data sets differ (database_complete_iff); otherwise the data set of the last file with an identifier remains and the others are lost.

Theorems: `Driver.database_archive_partial`, `Driver.database_complete_partial`, `Driver.database_loses`, `Driver.database_complete_iff`

### C27 Options only take booleans

Setting an option of a converter to anything but a boolean raises TypeError and keeps the previous value, and every option always holds a boolean.

Approach: `Driver.Options`.

Status: **partial**. False as stated: the numbers 1 and 0 are accepted too. The exact acceptance condition and its preservation are proved.

Theorems: `Options.setAttr_iff`, `Options.rejected_keeps`, `Options.options_hold_flags_partial`, `Options.number_accepted`, `Options.defaults_bool`, `Options.options_present`, `Options.defaults_documented`

### C28 get_converter validates its arguments

get_converter returns a converter only for known formats with valid elementary flow lists, an existing input path and an existing output directory; any other call raises an error.

Approach: `Driver.getConverter`, decision logic.

Status: **partial**. The exact acceptance condition is proved; with equal formats the elementary flow lists are not checked.

Theorems: `Options.getConverter_ok_iff`, `Options.any_list_accepted`, `Options.usable_iff`

### C29 A failed conversion does not disturb the next one

After a conversion fails, the same converter converts other files as a new one would. False of the code: the partially filled data set is kept and the next conversion fails with a uniqueness error.

Approach: `Driver`, witness history.

Status: **partial**. False of the code for later files of the same version, which is proved; holds when nothing was begun and the version differs.

Theorems: `Driver.failure_sticks`, `Driver.failure_sticks_example`, `Driver.recovers_partial`

### C30 Lognormal uncertainty round trip

The variance and mean of a lognormal uncertainty exported to ILCD and imported back are the original ones; the same for normal, triangular and uniform.

Approach: `Uncertainty` over the reals.

Status: **partial**. Proved for the distribution parameters over the real numbers, with the inverse factor and positive lognormal values; for negative ones the logarithmic mean comes back as 0 (proved). The basic variance and the pedigree scores travel as comment text, which is not modelled here.

Theorems: `Uncertainty.round_trip`, `Uncertainty.round_trip_negative`

### C31 Uncertainty bounds enclose the amount

The minimum and maximum amounts written for an exchange enclose its mean value. False of the code for negative lognormal means and for negative factors; true for positive ones.

Approach: `Uncertainty` over the reals, witnesses for the false cases.

Status: **partial**. True for positive factors and values; for negative ones the bounds are exchanged and for elementary flows with a mapping factor they can miss the value, all proved. From ILCD to EcoSpold2 the uncertainty is rescaled with the amount (exchange_uncertainty), the limits enclose it under positive factors.

Theorems: `Uncertainty.bounds_enclose_partial`, `Uncertainty.bounds_negative_lognormal`, `Uncertainty.bounds_negative_factor`, `Uncertainty.elementary_bounds_miss`, `IlcdFlows.exchange_uncertainty`, `IlcdFlows.limits_enclose`, `IlcdFlows.limits_reversed`

### C32 Unit conversion of amounts is linear and composes

Multiplying, dividing and adding amounts acts on the value as arithmetic does, and the uncertainty kept afterwards is the exact one of the resulting distribution, or none.

Approach: `Amount` over the reals.

Status: **partial**. The written distribution is exactly the push-forward (as a probability measure) for unit conversions, products and quotients. False for sums and for the factor of elementary flows with normal, triangular or uniform uncertainty; the exact conditions are proved.

Theorems: `Uncertainty.scaled_exact`, `Uncertainty.scaled_value`, `Uncertainty.product_exact`, `Uncertainty.quotient_exact`, `Uncertainty.elementary_lognormal`, `Uncertainty.sum_exact_iff`, `Uncertainty.sum_certain`, `Uncertainty.elementary_normal_iff`

### C33 Exchange identifiers are consecutive and unique

In a converted ILCD process the exchanges carry the internal identifiers 1, 2, 3, ... without repetition, and the reference flows listed are exactly the reference products.

Approach: `Flows`: direction/reference counter as a state machine.

Status: **partial**. Proved without summing of equal flows. With it the identifiers are different, in order and include the reference flows, but have gaps (witness).

Theorems: `EcsFlows.exchanges_numbered`, `EcsFlows.merge_identifiers`, `EcsFlows.merge_gap`

### C34 Flow versions distinguish flow properties

Within one data set, a flow exported with the same flow properties gets the same version and one with other properties a new version, so no two different flow data sets share identifier and version. False between the files of a database conversion, where the counter is reset.

Approach: `Flows`: version table as a state machine.

Status: **partial**. Proved within a data set; false between the data sets of a database, which is proved.

Theorems: `EcsFlows.versions_distinguish`, `EcsFlows.versions_clash`

### C35 Merging equal flows conserves amounts

When equal elementary flows of a data set are merged, there is one exchange per flow and direction and its amount is the sum of the merged amounts: totals are conserved.

Approach: `Merge`: the sum-same loop, conservation by induction.

Status: **proved**. For both directions; from ILCD to EcoSpold2 for every order of the set of exchanges and counted in base units.

Theorems: `EcsFlows.merge_total`, `EcsFlows.unmerged`, `EcsFlows.merge_sources`, `EcsFlows.merge_fails_iff`, `IlcdFlows.merge_total`, `IlcdFlows.sum_ok_iff`

### C36 Elementary flows are converted by the mapping or reported

Every elementary exchange either appears in the output with the target flow of the mapping file and its amount times the mapping factor, or is listed as not converted; none disappears silently.

Approach: `Mapping`: lookup with factor, partition of the exchanges into converted and reported.

Status: **partial**. For elementary exchanges proved in both directions: each is written with the target and the factor, or reported. From ILCD to EcoSpold2 a product without a known unit is only entered in the log (witness).

Theorems: `EcsFlows.exchanges_accounted`, `EcsFlows.elementary_converted`, `IlcdFlows.exchanges_accounted`, `IlcdFlows.exchange_amounts`, `IlcdFlows.unit_unknown_lost`

### C37 Each reference is written once

A source, contact or other data set referenced several times is written once, and all the references to it carry the same identifier.

Approach: `Refs`: fold over the references of a database, the entry of an identifier is that of its first reference.

Status: **partial**. Each identifier has one file (EcoSpold2 to ILCD) and one entry (ILCD to EcoSpold2), for every sequence of references, and it is that of the first reference; what later references would say is lost (pages_of_first).

Theorems: `Refs.files_of_first`, `Refs.master_sources`, `Refs.contacts_exact`, `Refs.own_files_found`, `Refs.exchange_mixed`, `Refs.pages_of_first`

### C38 Variables are defined once and before use

In a converted process every variable appears exactly once in the parameter list and every variable a formula uses is defined.

Approach: `Variables`.

Status: **partial**. EcoSpold2 to ILCD: names are distinct and every reference is defined, except for user names of the form Eq_aa_1 (witness). ILCD to EcoSpold2: proved for distinct names used once, false otherwise (witnesses).

Theorems: `EcsVars.parameters_distinct`, `EcsVars.references_defined`, `EcsVars.variables_defined_partial`, `EcsVars.conversions_defined`, `EcsVars.eq_name_undefined`, `IlcdVars.variables_once_partial`, `IlcdVars.factor_circular`, `IlcdVars.used_twice`, `IlcdVars.defined_twice`, `IlcdVars.original_lost`, `IlcdVars.new_name_taken`, `IlcdVars.name_kept_iff`, `IlcdVars.name_begins_with_letter`, `IlcdVars.unknown_variable`, `EcsVars.eqName_iff`, `IlcdVars.no_formula_partial`, `IlcdVars.original_reached`

### C39 Formulas keep their meaning

Renaming variables in a formula keeps its value. False of the ILCD to EcoSpold conversion: renaming is textual, repeated and touches names that contain the renamed name.

Approach: `Variables`: textual replacement, witness, and the case without renamed names.

Status: **partial**. Renaming keeps the meaning of formulas when no name occurs inside another; false otherwise (witnesses).

Theorems: `IlcdVars.rename_keeps_meaning_partial`, `IlcdVars.formulas_kept_partial`, `IlcdVars.rename_inside`, `IlcdVars.rename_again`, `IlcdVars.formula_renamed_twice`, `EcsVars.conversion_kept`, `IlcdVars.nameless_breaks`

### C40 Exchange groups written are always valid

The input/output group written for an exchange is a code the EcoSpold 2 schema accepts for that kind of exchange. False for an elementary reference flow (group 0).

Approach: `Groups`: decision table against the schema codes.

Status: **partial**. Every group written is valid; an elementary reference flow (and a flow of an unknown type) stops the conversion instead, which is proved exactly.

Theorems: `IlcdFlows.groups_always_valid`, `IlcdFlows.merge_groups`, `IlcdFlows.group_exists_iff`, `IlcdFlows.elementary_reference_stops`

### C41 EcoSpold exchange identifiers are distinct

No two exchanges of a converted EcoSpold 2 data set have the same identifier, even when they refer to the same flow.

Approach: `ExchangeIds`: search for the first unused suffix with an injective hash (parameter).

Status: **proved**. With and without summing. The search for an unused identifier ends if the hash (uuid3, a parameter) has no collisions.

Theorems: `IlcdFlows.ids_distinct`, `IlcdFlows.merge_ids`, `IlcdFlows.id_search_ends`, `IlcdFlows.id_search_may_not_end`

### C42 Classification of energy values

The energy value code written is gross when gross calorific values outnumber net ones three to one, net in the opposite case and undefined otherwise, never contradicting the majority.

Approach: `IlcdProps`: fold over the properties of all products, then the decision.

Status: **partial**. The code is that of the heating values of the flow files; a data set without heating values gets 1 (net), not 0 (undefined), proved.

Theorems: `IlcdProps.energy_marks`, `IlcdProps.energy_code`, `IlcdProps.energy_without_values`

### C43 Code tables translate without loss

Codes that have a unique counterpart in the other format return to themselves after conversion there and back, and every code written is accepted by the target field.

Approach: `Tables`: general theorems on a table that is turned round, and decisions over whole tables.

Status: **partial**. For every table it is proved which entries come back; the tables that are turned round by the program are exact, of the tables written by hand the entries that are lost are listed.

Theorems: `Tables.inverse_last`, `Tables.inverse_exact`, `Tables.codes_exact`, `Tables.compartments_exact`, `Tables.models_kept_iff`, `Tables.models_identified`, `Tables.model_ids`, `Tables.licenses_kept_iff`, `Tables.unit_has_flow_property`, `Tables.unit_without_flow_property`, `Tables.flow_property_has_unit`, `Tables.groups_agree`, `Tables.flow_properties_agree_iff`, `Tables.elementary_flow_property`, `Admin.type_back`, `Admin.type_stops`, `Admin.type_round`, `Admin.type_kept_iff`, `Admin.status_written_iff`, `Admin.status_back`, `Admin.unknown_stops`

### C44 Data set version round trip

The version number of a data set converted to ILCD and back has the same major release and minor revision, and the version text is a valid ILCD version. False for release numbers of ten and more.

Approach: `Admin`: decimal rendering and parsing, the pattern of versions from `Validators`.

Status: **partial**. For all numbers: the exact condition under which a version is written, is valid and is kept; false for major releases of ten and more and for minor releases and major revisions, which are lost.

Theorems: `Admin.version_written`, `Admin.version_unstated`, `Admin.version_valid_iff`, `Admin.version_back`, `Admin.version_round`, `Admin.ilcd_version_read`, `Admin.ilcd_version_round`, `Admin.version_without_point`, `Admin.version_letter`

### C45 Water, dry and wet mass are consistent

The properties written for a product with known water content satisfy dry mass + water mass = wet mass.

Approach: `IlcdProps` over a field.

Status: **partial**. Proved for every product with a water content; a product in m3 gets a wet mass of 1 kg (proved), because its unit is compared with another spelling.

Theorems: `IlcdProps.masses_consistent`, `IlcdProps.content_times_dry`, `IlcdProps.volume_gets_mass`

### C46 ILCD elementary flow list conversion rescales amounts correctly

When an ILCD data set moves to another elementary flow list, the amount and its uncertainty are multiplied by the same factor, or the exchange is left unconverted and reported.

Approach: `IlcdList` over a field: the archive as a function from paths to files, the units of a flow as a fold over its flow properties, spec as relations between file, unit and factor.

Status: **partial**. The amount, and the bounds of triangular and uniform distributions, are proved to be multiplied by the factor of the table and of the flow property. False of the rest: normal and undefined distributions, log-normal bounds, the factor between equal units, the mean amount, and exchanges reported as not converted that refer to the target; each is proved exactly.

Theorems: `IlcdList.getUri_iff`, `IlcdList.units_exact`, `IlcdList.read_plain`, `IlcdList.amount_scaled`, `IlcdList.bounds_scaled`, `IlcdList.unc_exact`, `IlcdList.normal_halved`, `IlcdList.normal_wrong`, `IlcdList.undefined_mixed`, `IlcdList.others_unscaled`, `IlcdList.others_wrong`, `IlcdList.same_unit`, `IlcdList.same_unit_right_iff`, `IlcdList.no_unit_retargeted`, `IlcdList.no_unit_iff`, `IlcdList.no_match_kept`, `IlcdList.unmapped_silent`, `IlcdList.reported_iff`, `IlcdList.mean_kept`, `IlcdList.unit_is_group`, `IlcdList.amountGiven_iff`

### C47 Reading a group does not change the data set

Reading a group of the data set under construction leaves what will be written unchanged. False of the code: reading a group that is absent creates it, which can even make the data set unwritable. True when the groups on the path are already there.

Approach: `Schema`, the tables transcribed by a script and decided as a whole.

Status: **partial**. False of the code (witness); true when the groups are present.

Theorems: `DotDict.reading_breaks_writing`, `DotDict.reading_present_unchanged_partial`

### C48 Nested groups are of the right class

Every nested group of a data set is an instance of the class its field prescribes. False of the code when ready-made instances are assigned; true for data sets built from plain values.

Status: **partial**. False of the code for ready-made instances (witness); true otherwise.

Theorems: `DotDict.wrong_class_accepted`, `DotDict.right_class_partial`

### C49 Coordinates are kept within the globe

A coordinate pair is accepted exactly when it is a latitude of -90..90 and a longitude of -180..180. False of the code: -90 (the south pole) is refused, longitudes such as 999 are accepted and text after the numbers is ignored; latitudes outside -90..90 are refused.

Status: **partial**. False of the code (witnesses). The exact condition for acceptance is proved (gis_accepts_iff): a latitude, a semicolon and the first digit of a longitude, with the rest ignored; the bound on latitudes follows.

Theorems: `Validators.latitude_bound`, `Validators.south_pole_rejected`, `Validators.longitude_unbounded`, `Validators.gis_three_digits`, `Validators.gis_accepts_iff`

### C50 Boolean fields round trip

A boolean field accepts exactly the documented texts and values and what it writes is accepted again with the same meaning.

Status: **proved**. 

Theorems: `Validators.bool_exact`, `Validators.bool_numbers`, `Validators.bool_written_reads_back`, `Validators.bool_written`, `Validators.bool_fractions`

### C51 Names of named texts respect their limit

The name of a named text has at most forty characters. False of the code: the limit is declared but never checked, a name of any length is written.

Status: **partial**. False of the code, for every name.

Theorems: `LangText.name_of_any_length`

### C52 Names and classifications are written in full

A name (or classification) field shows the whole text of its first (last) entry by index. True if the text is within the limit; otherwise only its first (last) piece is written and the rest is lost.

Status: **partial**. True for texts within the limit (`name_written_partial`, `classification_written_partial`); false for longer ones, of which exactly the first (last) piece is written, which is proved.

Theorems: `LangText.name_written_partial`, `LangText.name_cut`, `LangText.classification_written_partial`, `LangText.classification_cut`

### C53 No synonym is lost

Every synonym given is written, in index order. False of the code: synonyms over eighty characters are left out without notice, even when limits are ignored; all others are written.

Status: **partial**. Exactly the synonyms of at most eighty characters are written.

Theorems: `LangText.synonyms_exact`, `LangText.synonym_lost`

### C54 Text between child elements is kept

All the text of an element of the source file reaches the field mapping. False of the code: text that follows a child element is never seen; a file that differs only in such text is read identically.

Status: **partial**. False of the code, for every tree.

Theorems: `Xml.tails_lost`

### C55 Every mapped path exists in the source format

Each path a field mapping waits for can occur in a source file of the format. False of the code for ILCD to EcoSpold2: four paths are misspelt (or miss the attribute sign) and their mappings are never called, whatever the file; true for EcoSpold2 to ILCD and for ILCD to ILCD.

Status: **partial**. False for four paths of ILCD to EcoSpold2, exactly those; true for all others.

Theorems: `Mapping.ecs2_paths_occur`, `Mapping.ilcdSelf_paths_occur`, `Mapping.ilcd_paths_occur_partial`, `Mapping.misspelt_mapped`

### C56 No field of the source format is ignored

Every field of the source format lies on or below a mapped path, so that it is handed to a mapping. False of the code: impact indicators of EcoSpold2 and five fields of ILCD are never handed over; all others are.

Status: **partial**. Exactly the listed fields are never handed to a mapping; documents with and without them are read alike.

Theorems: `Mapping.ecs2_fields_covered_partial`, `Mapping.ilcd_fields_covered_partial`, `Mapping.ilcdSelf_fields_covered`, `Mapping.ecs2_unseen`, `Mapping.ilcd_unseen`, `Mapping.unseen_occur`

### C57 Converters do not influence each other

The names of the files a converter writes carry its own mark, whatever other converters exist. False of the code: the mark is a class attribute set when a converter first writes, so an older converter uses the mark of the newest.

Status: **partial**. False of the code; the behaviour is proved.

Theorems: `Driver.mark_of_other`

### C58 Changed settings take effect

A change of the elementary flow mapping or of convert_additional_fields takes effect at the next conversion. False of the code as long as the version of the files stays the same; then the change has no effect at all.

Status: **partial**. False of the code while the version stays the same, which is proved.

Theorems: `Driver.settings_ignored`

### C59 Information of one file does not reach the next

What is read in advance from a file (its language, its flow references) is used for that file only. False of the code: when the next file lacks it, that of the earlier file is used.

Status: **partial**. False of the code, which is proved.

Theorems: `Driver.information_leaks`

### C60 Accepted format pairs can be converted

If get_converter accepts two formats, there is a field mapping for them. False of the code: six of the nine accepted pairs have none and every conversion fails; exactly the listed versions of the other three pairs are converted.

Status: **partial**. False for six of nine pairs; the exact list is proved.

Theorems: `Options.pairs_without_mapping`, `Options.versions_converted`

### C61 A directory of ILCD archives is converted archive by archive

In to_database mode each archive of a directory gives exactly one archive with its own processes only, in order and under new, different names.

Status: **proved**. 

Theorems: `Driver.zips_outputs`

### C62 The functional unit names the reference product

The text of the functional unit of a converted process names a reference product with its amount and unit whenever there is one reference product, and is left out when there are several. False of the code for an odd number of several reference products: the text is written and removed in turn, so it names the last of three.

Status: **partial**. The text is present exactly for an odd number of reference products, so the property fails for three.

Theorems: `EcsFlows.functional_unit`

### C63 The allocation of the source is transferred

If an activity declares a master allocation property, the exchanges of the converted process carry allocation factors in proportion to that property. False of the code: the property is stored under another attribute name than the one read, so no exchange ever gets a share.

Status: **partial**. False of the code, for every data set.

Theorems: `EcsFlows.no_shares`

### C64 Summed exchanges carry no stale uncertainty

The bounds written beside the value of a summed elementary exchange belong to that value. False of the code: when the sum has no uncertainty any more, the bounds of the first exchange stay, and the maximum can be below the value.

Status: **partial**. False of the code, for all lognormal exchanges.

Theorems: `EcsFlows.merge_stale_bounds`, `IlcdFlows.merge_stale_uncertainty`, `IlcdFlows.merge_stale_example`, `IlcdFlows.merge_normal_mean`

### C65 Variables carry the amounts

In the conversion of EcoSpold2 to ILCD, the variable an exchange refers to has the amount of that exchange as its value and agrees with its formula. False of the code for elementary flows (the amount is multiplied by the mapping factor, the formula is not), for two amounts with the same variable name (the first value stays) and for converted variables of named amounts without formula (the link to the original is lost).

Status: **partial**. Proved for amounts with distinct names; the three exceptions are proved too.

Theorems: `EcsVars.values_kept_partial`, `EcsVars.same_name_first_value`, `EcsVars.elementary_formula_unscaled`, `EcsVars.conversion_link_lost`

### C66 References and unit conversions in formulas are resolved

Every Ref('...') of an EcoSpold2 formula is replaced by the amount (or the production volume) of the exchange it refers to, every UnitConversion(...) by a product with the factor of the units, and the rest of the formula stays as it is. A reference to something unknown is an error. False of the code for the production volume of an exchange without one: the text None is written.

Status: **partial**. Proved for all formulas whose references are known; the text None for missing production volumes is a witness of the failure.

Theorems: `EcsVars.refs_replaced`, `EcsVars.units_replaced`, `EcsVars.ref_unknown`, `EcsVars.ref_none`

### C67 Decimal commas and percent signs in formulas keep their meaning

A formula without percent signs and decimal commas is written unchanged; decimal commas become points and a percent sign a division by hundred. False of the code for formulas with a decimal comma and a function of several arguments: all commas are replaced, so the arguments are joined.

Status: **partial**. Proved: formulas without percent signs and decimal commas are kept and percent signs replaced; false for a decimal comma in a formula with several arguments, since every comma is replaced, which is proved with the exact condition (`decimalComma_iff`).

Theorems: `EcsVars.plain_formula_kept`, `EcsVars.percent_replaced`, `EcsVars.decimalComma_iff`, `EcsVars.commas_all_replaced`, `EcsVars.arguments_joined`, `EcsVars.formula_written`

### C68 Codes written into comments are recovered

The attributes of EcoSpold2 that have no field in ILCD (name identifier, special activity type, inheritance, parent, technology level, validity, energy values, start and end of the activity) are written as lines of comments and come back when the process is converted to EcoSpold2, while the rest of the comment stays. False of the code for the kind of inheritance of a data set with a parent (always -1) and for undefined energy values (replaced by a choice from the exchanges).

Status: **partial**. Proved for all comments without the marks; false for the inheritance of data sets with a parent and for undefined energy values, both proved.

Theorems: `Comments.general_restored_partial`, `Comments.written_paragraphs`, `Comments.inheritance_lost`, `Comments.tech_restored`, `Comments.start_alone`, `Comments.validity_restored`, `Comments.energy_restored`, `Comments.energy_undefined`, `Comments.energy_chosen_iff`, `Comments.uuidMatch_iff`, `Comments.unknown_codes`

### C69 Comments of the user do not break the conversion

A comment that is not written by the converter is carried over whatever it says. False of the code: a text such as 'Energy: ' or 'Validity: ' followed by anything but the known phrases stops the conversion, and a marked part of a line of the user's text is cut out. Exactly the comments in which the first mark is followed by an unknown phrase fail.

Status: **partial**. False of the code; the exact condition of failure and the exact text left are proved. Comments without marks are kept.

Theorems: `Comments.comment_fails_iff`, `Comments.energy_comment_fails`, `Comments.validity_comment_fails`, `Comments.removed_lines`, `Comments.left_unique`, `Comments.remark_lost`, `Comments.unmarked_kept`

### C70 Tags survive the round trip

The tags of an EcoSpold2 activity come back after a conversion to ILCD and back. False of the code with more than one tag: only the first comes back, followed by an empty one.

Status: **partial**. True for at most one tag; false for more, which is proved.

Theorems: `Comments.general_restored_partial`, `Comments.tags_lost`

### C71 The system model survives the round trip

The name of the system model comes back with its identifier after a conversion to ILCD and back, and every system model can be converted. False of the code for names that are not in its table: the conversion stops.

Status: **partial**. Restored for all names of the table; other names stop the conversion; exactly the names of the table are accepted.

Theorems: `Comments.system_model_restored`, `Comments.system_model_known_iff`, `Comments.system_model_id_shared`, `Comments.modelMatch_iff`, `Comments.deviation_text`

### C72 The direction of an exchange is kept

An exchange that enters the process in ILCD is an input in EcoSpold2, and one that leaves it an output, or its sign is changed. False of the code for reference flows: every one is written as an output with the same amount, also the waste that enters a treatment process.

Approach: `IlcdFlows`: decision table of the groups within the state machine over the exchanges.

Status: **partial**. Proved for all exchanges but the reference flows, for which it fails (proved).

Theorems: `IlcdFlows.direction_kept_partial`, `IlcdFlows.reference_becomes_output`, `IlcdFlows.waste_becomes_output`, `IlcdFlows.group_codes`

### C73 Unit identifier and unit name agree

The identifier and the name of the unit written for an exchange denote the same unit. False of the code for elementary flows: the identifier is that of the first unit with the same dimension in a table, whatever its size.

Approach: `IlcdFlows`: search in the table of units.

Status: **partial**. Products have name and identifier from the same entry; elementary exchanges only the same dimension (witness).

Theorems: `IlcdFlows.unit_dimension_partial`, `IlcdFlows.unit_id_other`, `IlcdFlows.exchange_amounts`, `IlcdFlows.unit_name_joined_partial`

### C74 Summed exchanges do not depend on chance

What is written for equal elementary flows is determined by the data set. False of the code in the conversion of ILCD to EcoSpold2: the exchanges are taken out of a set of objects, whose order is arbitrary, and the first one gives the unit, the variable, the formula, the uncertainty and the comments of the sum.

Approach: `IlcdFlows`: the order of the set is a parameter (any permutation).

Status: **partial**. False of the code (witness); what does not depend on the order is the total in base units.

Theorems: `IlcdFlows.merge_order_matters`, `IlcdFlows.merge_keeps_first`, `IlcdFlows.merge_total`, `IlcdFlows.merge_variance`

### C75 Flow properties hold per unit of the flow

A property of a product of EcoSpold2 that has a flow property of ILCD is written with the mean value per unit of the ILCD flow: a quantity q of the product holds the same total of it before and after, whether the property was given per unit, per dry mass or per volume. False of the code for concentrations (divided by the amount of the exchange), for contents without a known dry mass (left out) and for the water of a product without dry mass.

Approach: `EcsProps`: the three loops over the properties as folds over an association list, field of numbers; spec as a relation between property, basis and value.

Status: **partial**. Exact description of the flow properties written; totals are kept for properties per unit and per dry mass. It fails for concentrations, for contents without dry mass and for water (proved).

Theorems: `EcsProps.flow_properties_iff`, `EcsProps.total_per_unit`, `EcsProps.total_per_dry_mass`, `EcsProps.dry_mass_needed`, `EcsProps.concentration_depends_on_amount`, `EcsProps.water_lost`, `EcsProps.convert_succeeds`, `EcsProps.ex_convert`

### C76 The flow properties of a flow have distinct internal numbers

The internal identifiers of the flow properties of a flow written to ILCD are pairwise distinct and differ from that of the reference flow property.

Approach: `EcsProps`: counter invariant.

Status: **proved**. All lists of properties.

Theorems: `EcsProps.numbers_distinct`

### C77 A flow property is given once

A flow written to ILCD has at most one mean value for each flow property. False of the code: a content and a concentration of the same substance give the same flow property twice with different values.

Approach: `EcsProps`: witness.

Status: **partial**. False of the code (witness); flow_properties_iff says which values there are.

Theorems: `EcsProps.same_flow_property_twice`, `EcsProps.flow_properties_iff`

### C78 The properties of an EcoSpold2 product are those of the flow file

The properties written for a product in EcoSpold2 are exactly those of the flow properties of its ILCD flow that have a counterpart, with the value of the file (contents relative to the dry mass), and the masses that follow from the water content; the exchange can be converted exactly when all the needed numbers can be read.

Approach: `IlcdProps`: fold over the flow properties of the file, spec as an inductive relation.

Status: **proved**. Both directions, with the conditions under which the conversion stops.

Theorems: `IlcdProps.properties_iff`, `IlcdProps.readProps_ok_iff`, `IlcdProps.convertProps_succeeds`, `IlcdProps.exchange_ok_iff`, `IlcdProps.contents_lost`, `IlcdProps.variants_unused`, `IlcdProps.ex_convert`

### C79 Property identifiers belong to EcoSpold2

The property identifiers written to EcoSpold2 are identifiers of EcoSpold2. False of the code with the option to use master data: the identifiers of the ILCD flow properties are written, none of which is an identifier of EcoSpold2 in the tables.

Approach: `IlcdProps` with the tables `UnitTables`.

Status: **partial**. False of the code with the option; the ids of ILCD are in no table of EcoSpold2 (whole tables decided).

Theorems: `IlcdProps.master_keeps_ilcd`, `IlcdProps.ilcd_ids_foreign`, `IlcdProps.ex_master`, `IlcdProps.master_rows`

### C80 Allocation fractions are kept

Each fraction by which an exchange of ILCD is allocated to a co-product is written as a property of the exchange in EcoSpold2 that names the co-product. False of the code when an exchange has a single allocation (the conversion stops) and when two co-products have the same name (the last fraction stays).

Approach: `IlcdProps`: association list of fractions.

Status: **partial**. Proved for two or more allocations to co-products with distinct names; the other cases fail (proved).

Theorems: `IlcdProps.allocations_kept`, `IlcdProps.allocation_single_stops`, `IlcdProps.ex_allocation_collapse`, `IlcdProps.master_rows`

### C81 Properties survive the round trip

A content or a heating value of a product of ILCD comes back as the same flow property with the same value after the conversion to EcoSpold2 and back. False of the code for contents of a product without a water content or dry mass: none of them comes back.

Approach: `PropsRound`: composition of `IlcdProps` and `EcsProps` through the written file.

Status: **partial**. Contents with a water content other than 1 and heating values come back; without a water content no content comes back (proved).

Theorems: `PropsRound.content_round_trip`, `PropsRound.heating_round_trip`, `PropsRound.contents_need_water`

### C82 A failed conversion does not disturb later ones

A conversion that ends with an error leaves nothing behind in the process: every later conversion, by the same or another converter, ends as it does in a new process. False of the code: exchanges that cannot be added (with the options to sum and for parameters) make all later conversions from EcoSpold2 fail; a failure at the end of an ILCD file leaves its variables, which are written as parameters of the next data set or, if they cannot be written, make all later conversions fail.

Approach: `Session`: the class attributes as a state threaded through conversions; induction over sequences of conversions.

Status: **partial**. False of the code; the failures that leave something behind are characterised exactly for both directions, conversions without them are independent, and what follows one that does is proved for all later conversions. Of the exchanges and variables only what decides about errors is modelled.

Theorems: `Session.success_clean`, `Session.clean_iff`, `Session.options_off`, `Session.independent`, `Session.fails_forever`, `Session.disturbs_poisons`, `Session.witness_disturbed`, `Session.leaves_iff`, `Session.left_leak`, `Session.bad_variable_forever`, `Session.success_clean_ilcd`, `Session.witness_disturbed_ilcd`

### C83 The error reported is the error that occurred

A conversion that fails reports the error of the first file that cannot be converted. False of the code: cleaning up fails itself, from EcoSpold2 exactly in the cases that leave something behind, from ILCD whenever the file has been read completely.

Approach: `Session`: the error before and after `delete`.

Status: **partial**. False of the code; from EcoSpold2 exactly when something is left behind, from ILCD always when the file has been read.

Theorems: `Session.error_kept`, `Session.error_hidden`, `Session.file_error_iff`, `Session.file_error`, `Session.hidden_late`, `Session.kept_early`, `Session.model_error`

### C84 Author, year and pages of a source are kept

The author, the year and the pages of a source of EcoSpold2, which the program writes into the name of the source in ILCD, are found again when the data set is converted back. From names written by others, author, year and pages are found if they are there. False of the code: a name such as `Smith (2010)` loses the last letter of the author, and a year that belongs to the title is taken for the year of the source.

Approach: `Citations`: the two regular expressions by their meaning (the last year in the last line), and the composition with the writer.

Status: **partial**. What is read from a name is described exactly; names that the program writes itself are read back. False of the code for names written by others without a sign before the year (the last letter of the author is lost) and for a year in the title (witnesses).

Theorems: `Citations.lastCore_iff`, `Citations.lastCore_none`, `Citations.lastLine_spec`, `Citations.cite_paged`, `Citations.cite_year`, `Citations.cite_none`, `Citations.cite_fails`, `Citations.pages_round_trip`, `Citations.year_round_trip`, `Citations.author_round_trip`, `Citations.author_cut`, `Citations.author_never`, `Citations.witness_citations`, `Citations.digits_ascii`

### C85 A reference leads to its own data set

The file that is read for a reference to a source, a contact or a flow is the one of the data set and version referred to, and those that the program has written itself are found again. False of the code for files of others: if there is no file of that version and address, the first entry of the folder whose name contains the identifier is taken, whatever its version.

Approach: `Refs`: a folder as the list of its entries; the file chosen as a four-way condition.

Status: **partial**. The file taken is described exactly; own files are found in whatever order they are listed. False for files of others (other_version, order_matters).

Theorems: `Refs.lastSegment_spec`, `Refs.found_iff`, `Refs.none_iff`, `Refs.other_version`, `Refs.order_matters`, `Refs.own_files_found`, `Refs.own_flows_found`

### C86 References to sources do not stop a conversion

A data set that refers to sources is converted, wherever it refers to them and whatever they are called; in particular a data set that the program has written itself can be converted back. False of the code: an external document that is not called like an image or an icon stops the conversion, and sources of properties and parameters are written as such documents.

Approach: `Refs`: places and kinds of sources.

Status: **partial**. False of the code; for each place and name what happens is proved.

Theorems: `Refs.short_stops`, `Refs.documentation_stops`, `Refs.citation_stops`, `Refs.picture_stops`, `Refs.image_taken`, `Refs.icon_taken`, `Refs.dropped`, `Refs.own_documents_stop`, `Refs.source_name_stops`

### C87 The source of an exchange is one source

Identifier, author, year and pages of the source of an exchange are those of one source, the one that is cited by it. False of the code: with several sources the author is that of the last one and the year that of the last one that has a year; and since a source has one file, exchanges that cite different pages of it all come back with the pages of the first.

Approach: `Refs`: fold over the readings of a list of references; composition with `Citations` through the written archive.

Status: **partial**. False of the code; what is set is described exactly for every list of sources.

Theorems: `Refs.exchange_sources`, `Refs.publication_sources`, `Refs.two_pages_stop`, `Refs.exchange_mixed`, `Refs.pages_of_first`, `Refs.master_sources`

### C88 Every person and company referred to has an entry in the master data

An EcoSpold2 data set that names a person or a company by its identifier has an entry with this identifier, of that kind, in its master data, and one only. False of the code: without a file there is no entry, and one that is met first as a company has no entry as a person.

Approach: `Refs`: fold over the contacts with their roles.

Status: **partial**. One entry at most is proved; that there is one is false of the code, and the exact conditions are proved.

Theorems: `Refs.contacts_exact`, `Refs.kind_of_first`, `Refs.missing_contact_dangles`, `Refs.contact_short_stops`, `Refs.contact_name_stops`

### C89 The date and the version of a review are kept

A review of EcoSpold2 that is converted to ILCD and back has the same date, the same version and the same details. False of the code: the second and third numbers of the version are exchanged, a version with the major release 0 is replaced by the next free default, the version is only found if there are further details, a date with a time is lost, and the kind of the review is added to the details each time.

Approach: `Reviews`: the two lines that carry date and version, over `Comments` (search and removal); exact form of what is matched.

Status: **partial**. False of the code; exactly what comes back is proved for every review, and when the version is kept.

Theorems: `Reviews.there_and_back`, `Reviews.round_trip`, `Reviews.version_kept_iff`, `Reviews.details_back`, `Reviews.no_details_back`, `Reviews.date_time_lost`, `Reviews.readVersion_text`, `Reviews.versionMatch_iff`, `Reviews.dateMatch_iff`, `Reviews.versions_given`, `Reviews.texts_kept`, `Reviews.wrong_date_stops`

### C90 Reviews by others are external

A review whose reviewer has an address outside ecoinvent is an external one in ILCD, one by ecoinvent an internal one. False of the code: every review whose reviewer has an address is called internal, none is ever called external.

Approach: `Reviews`: the result of `find` used as a truth value, for every address.

Status: **partial**. False of the code; the kind that is written is determined for every address.

Theorems: `Reviews.kind_some`, `Reviews.kind_never_external`, `Reviews.kind_none_iff`, `Reviews.external_is_internal`, `Reviews.left_out_iff`, `Reviews.find_zero_iff`

### C91 A review keeps its reviewers

A review of ILCD keeps its reviewers: each is named, and the identifier leads to an entry of the master data. False of the code: a review by several people has an identifier made from the names, for which there is no entry; names of more than 40 characters together stop the conversion, as does a reviewer without a short description; a review without reviewers is left out.

Approach: `Reviews`: fold over the reviewers on top of `Refs`.

Status: **partial**. The names are proved to be kept; the rest is false of the code and what happens is proved.

Theorems: `Reviews.several_reviewers`, `Reviews.reviewers_all`, `Reviews.long_names_stop`, `Reviews.unnamed_reviewer_stops`, `Reviews.no_reviewer_lost`, `Reviews.reviewerName_iff`

### C92 Access restrictions are kept

The code of an EcoSpold2 data set that says who has access to it is the same after a conversion to ILCD and back, and an ILCD data set keeps to whom access is granted. False of the code: the codes 2 and 3 and a data set without a code come back as 1, and a data set with an owner but without a license after it, or with the text 'Restricted to ', stops the conversion.

Approach: `Admin`: the entries of a document as a sequence of events, an invariant of the fold.

Status: **partial**. False of the code; what becomes of every code and of every document is proved.

Theorems: `Admin.access_written_iff`, `Admin.access_unstated`, `Admin.access_back`, `Admin.access_kept_iff`, `Admin.restricted_stops`, `Admin.exclusive_stops`, `Admin.license_decides`, `Admin.text_decides`, `Admin.nothing_said`

### C93 The time period is not shortened

The time period of a data set converted to ILCD and back contains the original one, and is the same if it began with the first and ended with the last day of a year.

Approach: `Admin`: days in the order of the calendar.

Status: **proved**. For all days; how a date is read from its text is not modelled.

Theorems: `Admin.years_written`, `Admin.period_back`, `Admin.period_not_shortened`, `Admin.period_kept_iff`

### C94 Every flow of an ILCD data set with another flow list comes with its files

After the conversion to another flow list, the flow of every exchange is in the archive written, with the flow properties and unit groups that it refers to. False of the code: the flow properties of flows without a counterpart and all but the first flow property of flows that are not in the table are not saved.

Approach: `IlcdList`: the files saved as a growing list threaded through the exchanges.

Status: **partial**. The flows of all exchanges are proved to be saved, with flow property and unit group for converted ones; false for the flow properties of the others (no_match_property_missing, unmapped_others_missing). Whether the target file itself refers to the files saved depends on the default files, which are not modelled.

Theorems: `IlcdList.target_saved`, `IlcdList.flow_saved`, `IlcdList.all_flows_saved`, `IlcdList.saved_grows`, `IlcdList.no_match_property_missing`, `IlcdList.unmapped_file`, `IlcdList.unmapped_others_missing`, `IlcdList.all_exact`

### C95 Variables follow the amounts of a converted ILCD exchange

When the amount of an exchange is multiplied, its variable has the value of its new formula, formulas can refer to the variables added, each variable is there once, and exchanges with the same variable are all converted. False of the code: the mean value is that before the multiplication, the names contain the characters of the units, the factor is added once for each exchange, and a variable of two exchanges stops the conversion.

Approach: `IlcdList`: the variables as a list threaded through the exchanges.

Status: **partial**. False of the code; what becomes of the variables is proved exactly.

Theorems: `IlcdList.variable_exact`, `IlcdList.variable_mean_right_iff`, `IlcdList.variable_renamed`, `IlcdList.variable_used_twice`, `IlcdList.factor_added`, `IlcdList.factor_identifier_iff`, `IlcdList.no_formula_stops`, `IlcdList.parameter_renamed`

### C96 An ILCD data set that conforms to the format can be moved to another flow list

The conversion of an exchange does not depend on optional fields: without a resulting amount the mean amount is used, names in several languages and unit groups of one unit are read. False of the code: each of these stops the conversion of the whole data set.

Approach: `IlcdList`: errors as values; witnesses for every position in a data set.

Status: **partial**. False of the code; the conditions under which the conversion stops are proved.

Theorems: `IlcdList.no_result_stops`, `IlcdList.no_result_stops_all`, `IlcdList.one_stops_all`, `IlcdList.no_file_stops`, `IlcdList.single_unit_stops`, `IlcdList.texts_stop`, `IlcdList.unknown_unit_stops`, `IlcdList.no_group`

### C97 The sections of an ILCD data set moved to another flow list keep their content

When a section of the data set is taken over, the value given to the structure differs from the one read only by the number 1 on each text that has a language, at every depth; a field of several languages then shows, for each language of the file and no other, all the texts of the file in that language, in the order of the file, joined by the separator of the field.

Approach: `PlaceIndex`: mutual recursion on nested values; an inductive relation as specification; composed with `XmlStream` and `LangText`.

Status: **proved**. place_iff: exact result for every value; texts_written: composition with the reading of XML and with the text fields (texts that are not blank, languages allowed).

Theorems: `PlaceIndex.place_iff`, `PlaceIndex.entry_iff`, `PlaceIndex.section_kept`, `PlaceIndex.texts_placed`, `PlaceIndex.texts_written`

### C98 Every section of a conforming ILCD data set can be taken over

A section with several codes of one kind (several approaches of the method, several reference flows) and texts without a language, both allowed by the format, are taken over. False of the code: a section stops the conversion exactly if a text without attributes in it has a sibling of the same name, outside of texts with a language, and a text without a language is refused by the field.

Approach: `PlaceIndex`: an inductive predicate on elements that is equivalent to failure.

Status: **partial**. False of the code; place_elem_ok gives exactly the sections that can be taken.

Theorems: `PlaceIndex.place_elem_ok`, `PlaceIndex.entry_elem_ok`, `PlaceIndex.two_codes_stop`, `PlaceIndex.no_language_refused`, `PlaceIndex.list_stops`

### C99 The variables of a comment are filled in

After the conversion to ILCD, the texts of a comment say, in the same order and with the same index and language, what the comment says when each place {{name}} is filled with the value of the variable of that name; nothing else is changed. False of the code for values that contain places themselves (the result depends on the order of the variables), and a variable without a value or a blank text stops the conversion.

Approach: `TextImage`: a comment as a list of pieces; induction on the variables and on the pieces.

Status: **partial**. Proved for values without opening braces and names without braces; false for values with places (order_matters). process_iff is exact for every comment.

Theorems: `TextImage.variables_filled`, `TextImage.no_place_kept`, `TextImage.process_iff`, `TextImage.comment_converted_partial`, `TextImage.order_matters`, `TextImage.empty_variable_stops`, `TextImage.blank_text`

### C100 Each image of a data set has a source of its own

Every image and icon of an EcoSpold2 data set becomes a reference to a source whose file has its address; the same address always leads to the same source, and different addresses to different ones. False of the code: addresses that share a part in the shape of a UUID share the source, and only the first address is written; an empty address, and one with such a part that is no UUID in small letters, stop the conversion; outside of ASCII two addresses can be drawn the same identifier.

Approach: `TextImage`: the search as a recursive function against a specification by decomposition; the codes of printable characters as a prefix code.

Status: **partial**. The identifier is described exactly for every text. The random generator is a parameter that gives UUIDs; that it gives different ones for different numbers is a hypothesis of images_apart_partial.

Theorems: `TextImage.textUuid_iff`, `TextImage.textUuid_error_iff`, `TextImage.findId_iff`, `TextImage.seed_read`, `TextImage.seed_injective`, `TextImage.seed_collision`, `TextImage.addSource_iff`, `TextImage.addSource_refused`, `TextImage.doImages_iff`, `TextImage.second_image_lost`, `TextImage.images_apart_partial`, `TextImage.identified_unique`

### C101 Texts on method and data sources arrive under their headings

The thirteen texts of an ILCD data set on method, principles, deviations, sampling and use arrive in the sampling procedure or the extrapolations of the EcoSpold2 data set: for each language exactly the texts of that language, the sampling procedure first and each other text as a paragraph under the heading of its element, in the order of the document; deviations that say 'none' are left out. False of the code for deviations without any attribute and for texts without a language in a data set without a default: they stop the conversion.

Approach: `RepTexts`: the running number as part of the state; the paragraphs by language from sortedness of the indexes; a separate table of headings.

Status: **partial**. Proved for data sets without the lines that the programme itself writes and for texts up to 32000 characters (longer ones are split, C07); false for texts without attributes in four of the fields and without a language.

Theorems: `RepTexts.texts_arrive_partial`, `RepTexts.converted_iff`, `RepTexts.run_shows`, `RepTexts.run_ok_iff`, `RepTexts.run_error`, `RepTexts.plain_deviation_stops`, `RepTexts.no_language_stops`

### C102 Sampling procedure and extrapolations survive a conversion to ILCD and back

A data set converted from EcoSpold2 to ILCD and back, any number of times, has the sampling procedure and the extrapolations it had. False of the code: each time an empty paragraph on modelling constants is added to the English sampling procedure, and one heading (two in English) is put in front of the extrapolations; the sampling procedure in other languages is kept.

Approach: `RepTexts`: a relation for one conversion there and back, induction on the number of conversions.

Status: **partial**. False: the exact growth is proved for any number of conversions. The sampling procedure in languages other than English is kept.

Theorems: `RepTexts.trip_texts`, `RepTexts.trip_good`, `RepTexts.trip_exists`, `RepTexts.english_grows`, `RepTexts.other_language_kept_partial`, `RepTexts.other_language_heading`, `RepTexts.silence_lost`

### C103 Cutting a long text into sentences loses nothing

A text that is longer than its field is first cut into sentences; put together again, these are the text, apart from white space. False of the code: the full stop after Inc., Ltd., Jr., Sr. or Co. is lost when the next word is one of sixteen, a quotation mark after the end of a sentence changes places with it, and the marks <prd> and <stop> in the text are replaced. All other characters are kept, in their order, in every text.

Approach: `Sentences`: a pattern as a row of places with alternatives, the replacement place by place; a checked condition on each statement that keeps a kind of character, induction along the marks and matches of a text.

Status: **partial**. False of the code as stated; words_kept_partial and unquoted_kept hold for every text, text_kept for every text without the risky places, which are listed. White space is not considered.

Theorems: `Sentences.words_kept_partial`, `Sentences.unquoted_kept`, `Sentences.text_kept`, `Sentences.sentences_ne_nil`, `Sentences.long_text_kept`, `Sentences.long_text_words`, `Sentences.full_stop_lost`, `Sentences.quote_moved`, `Sentences.marks_lost`

### C104 Numbers in a long text stay whole

A number with decimals in a text that is longer than its field can be read in one of the pieces that are written. False of the code: the point of every such number ends a sentence, so that no piece ever shows a number with decimals (0.5 becomes 0. 5, or is divided between two entries).

Approach: `Sentences`: invariant that every `<prd>` stands beside a letter and every full stop before a mark.

Status: **partial**. False of the code; proved for every text without the marks of the code that no sentence, and no piece if no sentence is longer than the limit, shows a number with decimals.

Theorems: `Sentences.decimals_cut`, `Sentences.decimals_lost`

### C105 Plain sentences are found as they are

A text made of sentences that end with a full stop, question mark, exclamation mark or semicolon and contain none of the characters and abbreviations that mean something to the code is cut into exactly these sentences.

Approach: `PlainSentences`: no pattern finds a match in a text of plain sentences; the last four statements as one map.

Status: **proved**. plain_exact holds for every list of plain sentences; the others pin the tables of abbreviations.

Theorems: `Sentences.plain_exact`, `Sentences.abbreviations_kept`, `Sentences.openers_start`, `Sentences.longer_words_open_nothing`, `Sentences.other_points_cut`

### C106 A reference to a flow leads to a flow data set with the properties of the exchange

After the conversion of an EcoSpold2 data set, the reference of each intermediate exchange stands for a file in the folder of flows, of the version named in the reference and with exactly the properties of the exchange; two exchanges have the same reference exactly if flow and properties are the same, nothing else is written, and the file is found when the result is read again. References of elementary exchanges stand for the default file of the target, with its version. False of the code if an elementary exchange has the identifier of an intermediate one; names, classification and type are those of the first exchange with these properties; from the thousandth set of properties on the version is not one of the format.

Approach: `FlowFiles`: the table of properties and the folder as the state; invariant that the table numbers the sets of properties in order of appearance and that each has its file; file names are told apart by the underscore and the number.

Status: **partial**. Proved for data sets in which no elementary exchange has the identifier of an intermediate one and different identifiers are converted to different ones without underscores (names_of_uuid: UUIDs in small letters are); shared_id_dangling, later_description_lost and version_form_iff show what is false without that.

Theorems: `FlowFiles.flows_found`, `FlowFiles.reference_of`, `FlowFiles.same_reference_iff`, `FlowFiles.folder_exact`, `FlowFiles.converted_iff`, `FlowFiles.default_version`, `FlowFiles.version_form_iff`, `FlowFiles.version_accepted`, `FlowFiles.names_of_uuid`, `FlowFiles.read_again`, `FlowFiles.shared_id_dangling`, `FlowFiles.later_description_lost`

### C107 Different properties of a flow in several data sets are kept apart

When several EcoSpold2 data sets are converted into one output, different sets of properties of a flow become different versions of it (as the warning of the converter says), so that every exchange finds its own properties. False of the code: the versions are numbered anew in each data set, and an exchange finds the properties of the last data set with so many versions; it holds with one output for each data set.

Approach: `FlowFiles`: the invariant for each data set, induction on the data sets with the last data set that has the version.

Status: **partial**. False of the code; database_exact says for every sequence of data sets which properties are found.

Theorems: `FlowFiles.database_exact`, `FlowFiles.database_finds_iff`, `FlowFiles.database_found_partial`, `FlowFiles.database_elementary`, `FlowFiles.each_file_found`, `FlowFiles.database_overwritten`

### C108 The classes of the source are written as the mapping gives them

A classification of an EcoSpold2 data set or exchange whose class is in the mapping is written as exactly the classes named there, numbered from 0, each with its name and with the part of the identifier that belongs to its level; a class the mapping does not know is written with its own text. The text of a known class has no effect.

Approach: `Classes`: cutting at a character characterised from the outside (names without "/" that give the text, parts of the identifier up to its n-th dot), uniqueness by the count of dots.

Status: **proved**. class_written says for every row with at most ten levels that the classes are the only ones with these names, numbers and identifiers.

Theorems: `Classes.class_written`, `Classes.class_too_deep`, `Classes.class_by_name`, `Classes.class_unknown`, `Classes.value_unused`, `Classes.mapped_text_fits`, `Classes.unknown_text_fits_iff`, `Classes.squeeze_eq`

### C109 The classes written are those of the classification file in the output

Each ILCD classification names a file with the categories of each kind of data set, which is put into the output: identifiers and names of the classes are those of a category in the section for the kind of data set, and the reference leads to the file. False of the code: a flow never has a category of the flow section (the identifiers are those for processes), a process has none where the mapping has no identifier or another spelling or does not know the class, and sources and contacts refer to a file that is not there.

Approach: `Classes`: the categories of the file and the pairs of the mapping as tables, the whole tables checked, the rest for every data set by the cases of the look-up.

Status: **partial**. False of the code; for processes the exact exceptions are listed, for flows no class at all is right (flow_class_never), flow_names_iff_partial says when the names are.

Theorems: `Classes.process_class_iff_partial`, `Classes.process_class_exceptions`, `Classes.unknown_not_listed`, `Classes.flow_class_never`, `Classes.flow_names_iff_partial`, `Classes.file_found_iff`, `Classes.simple_listed_partial`

### C110 The main classification comes first

The classifications of the systems ISIC rev.4 and CPC are all written and no others, the CPC class first for a flow and the ISIC class first for a process (as organize says). False of the code: organize compares the name, which is always ILCD, with the name of the system, and the order remains that of the source. A conversion stops exactly if such a classification has no text.

Approach: `Classes`: `organize` is the identity because the name is constant; witness with two rows of the mapping file.

Status: **partial**. False of the code (priority_not_first); proved that all classifications of the two systems are written, in the order of the source, and when a conversion stops.

Theorems: `Classes.flow_order_partial`, `Classes.process_order_partial`, `Classes.priority_not_first`, `Classes.flow_converted_iff`, `Classes.byProduct_last`

### C111 The amount of an exchange is in the unit of its flow property

The number written for an exchange or a flow property of a flow, read in the reference unit that the flow property and unit group files of the output give, is the amount of the source. False of the code for time: amounts are converted to days, and the unit group put into the output has the year as its reference unit, so that a reader takes a day for a year. For currency it holds only for a reader who takes the EUR of the file for the EUR2000 of the code.

Approach: `RefUnits`: the files of the package as tables, the whole tables checked against those of the code, the amounts over any field with sizes of units as a parameter.

Status: **partial**. False of the code for time (duration_not_kept, for every duration other than nought); proved for all other dimensions, for currency exactly if EUR and EUR2000 are the same.

Theorems: `RefUnits.amount_kept_partial`, `RefUnits.exchange_amount_partial`, `RefUnits.converted`, `RefUnits.converted_base`, `RefUnits.duration_as_years`, `RefUnits.duration_not_kept`, `RefUnits.currency_kept_iff`, `RefUnits.time_units`

### C112 A reference to a flow property leads to its file and unit group

For every sequence of exchanges and properties of a conversion, each reference to a flow property leads to a file in the output that has the version named, and the file of the unit group it refers to is in the output as well.

Approach: `RefUnits`: invariant that what is in `all_data` has been copied with its unit group, induction on the requests.

Status: **proved**. For every sequence of requests; stale_not_copied shows that the reset of all_data is needed.

Theorems: `RefUnits.references_lead`, `RefUnits.row_file`, `RefUnits.stale_not_copied`

### C113 An exchange in a unit of ILCD can be converted

Each dimension for which the code has a unit of ILCD has a flow property, and an exchange with it does not stop the conversion; a property never does. False of the code: items times time, amount of substance and volume times length have a unit but no flow property and end in an error.

Approach: `RefUnits`: the exact condition by induction on the requests, the eighteen dimensions from the tables.

Status: **partial**. False of the code for three of eighteen dimensions (moles_stop); run_ok_iff says for every sequence of requests whether it is answered.

Theorems: `RefUnits.known_ok_iff`, `RefUnits.moles_stop`, `RefUnits.unit_ok_iff`, `RefUnits.unit_error`, `RefUnits.property_ok`, `RefUnits.run_ok_iff`, `RefUnits.known_keys`

### C114 A unit is recognised whatever the order of its factors

The unit group and flow property of a unit do not depend on the order in which pint names the dimensions of its factors (as correct_dimensionality is to ensure). False of the code for mass times time, items times length and items times time: in the other order the amount is converted to base units and the exchange stops the conversion.

Approach: `RefUnits`: the text of pint for a dimension from its factors, all permutations of the factors.

Status: **partial**. False of the code for three dimensions (order_lost); proved for every order of the factors of the other fifteen.

Theorems: `RefUnits.order_kept_partial`, `RefUnits.order_lost`

### C115 The flow property of a unit is named as in its file

The short description in the reference to the flow property of an exchange is the name of the flow property data set it leads to. False of the code for two units: person kilometres refer to vehicle transport under the name of person transport, and currencies to the marginal increase of costs under the name of currency.

Approach: `RefUnits`: the table against the files.

Status: **partial**. False of the code for two units.

Theorems: `RefUnits.unit_name_partial`, `RefUnits.unit_name_wrong`

### C116 The activity index and the master data agree with the data set

In a conversion from ILCD to EcoSpold2 the identifier, the identifier of the name, the special activity type, the period, the geography and the system model of the entry in the activity index are those of the data set; the name of the master data has the same identifier; and there is an entry for the geography in the master data only with the identifier that the data set refers to.

Approach: `Naming`: invariant of the fields of the data set, the index and the master data, induction on the elements.

Status: **proved**. For every sequence of elements that is converted.

Theorems: `Naming.index_agrees`

### C117 The identifier of an activity name belongs to the name

In a conversion from ILCD to EcoSpold2 activityNameId is the identifier of the name that is written: two data sets have the same one if and only if they have the same activityName. Partly false of the code: of several base names the first is written and the identifier is computed of the last; a line of the comment overrides it. Proved: which name and which identifier are written, for all files, and the property if all base names have one text and no comment names an identifier.

Approach: `Naming`: what an element tells about the identifier as a relation; the last told one; the parts of the name in order.

Status: **partial**. False of the code for several base names (name_first_id_last, id_of_other_name); name_id says for every file which identifier it is. That equal names have equal identifiers and different ones different ones is the injectivity of uuid_from_string (C01).

Theorems: `Naming.name_first_partial`, `Naming.name_none`, `Naming.name_id`, `Naming.id_of_name_partial`, `Naming.name_first_id_last`, `Naming.id_of_other_name`, `Naming.linked_id`, `Naming.search_link`, `Naming.comment_link`

### C118 The name of an activity is whole, and the same in the master data

All parts of the name of an ILCD process reach activityName, and the master data have this name for its identifier. False of the code: only the first part that shows is written in the data set, while the master data have all the parts, joined by semicolons for each language; after conversion to ILCD and back the name in the master data has the short name of the location behind it.

Approach: `Naming`: the parts with one index are one text for each language.

Status: **partial**. False of the code (master_other_name, back_other_name); master_joined_partial and parts_lost say what is written, for texts within the limits or with the limits ignored.

Theorems: `Naming.master_joined_partial`, `Naming.master_other_name`, `Naming.parts_lost`, `Naming.back_other_name`

### C119 A location keeps its identity

A location has one identifier, that of the list if it is listed, otherwise one of its own with an entry in the master data; different locations of the list have different identifiers; and conversion to ILCD and back keeps the location and its identifier. Partly false of the code: an unlisted location gets another identifier than it had, and a geography with short names in two languages stops the conversion.

Approach: `Naming`: the whole table checked (form; distinct through a rising number for each identifier); the location is set once, so the state before it is known.

Status: **partial**. False of the code for locations that are not listed and for two short names; the rest is proved for every file.

Theorems: `Naming.place_identified`, `Naming.no_place`, `Naming.listed_valid`, `Naming.listed_distinct`, `Naming.listed_injective`, `Naming.location_accepted`, `Naming.there_and_back`, `Naming.unlisted_place_renumbered`, `Naming.two_shortnames_stop`, `Naming.uuidOk_iff`

### C120 Synonyms survive conversion to ILCD and back

The synonyms of an activity after conversion to ILCD and back are those of the EcoSpold2 file. Partly false of the code: they all come back as English, those with a semicolon and a space in them are divided and those of more than eighty characters are dropped; English ones without either are kept exactly.

Approach: `Naming`: splitting undoes joining for texts without the separator; running numbers are sorted.

Status: **partial**. False of the code; synonyms_back_partial says for every list without the separator what comes back.

Theorems: `Naming.synonyms_back_partial`, `Naming.english_synonyms_kept`, `Naming.synonym_turned_english`, `Naming.synonym_divided`

### C121 A name without a language is an English name

A name, a synonym or a comment without the attribute xml:lang, which the ILCD format allows and which means English, is converted as an English one. Partly false of the code: the other parts of the name and the comment are, but a base name without it stops the conversion, whatever else the file has.

Approach: `Naming`: exact condition for one element, witness for every file.

Status: **partial**. False of the code for base names.

Theorems: `Naming.base_name_iff`, `Naming.name_part_iff`, `Naming.bare_name_stops`, `Naming.returnText_iff`

### C122 An ILCD archive written is complete in itself

Every reference in a process data set or in any other data set of an archive made from EcoSpold2 data sets leads to a data set of the same archive. True of the processes and of the sources, contacts and product flows made; of the files copied from the package only unless the hydrogen content is asked for (its file names a preceding version that does not exist), or an elementary flow states a flow property that no exchange of the archive asks for, or names an owner that is no contact of the data sets.

Approach: `Archive`: an invariant of every operation (all references made so far lead to files, archives only grow), exact contents of the folders, then the references of every file of the package.

Status: **partial**. False of the code for some elementary flows and one flow property; self_contained_iff is the exact condition, process_leads holds without condition.

Theorems: `Archive.self_contained_iff`, `Archive.self_contained_partial`, `Archive.process_leads`, `Archive.property_there_iff`, `Archive.contact_there_iff`, `Archive.several_properties`, `Archive.owner_missing`, `Archive.hydrogen_missing`, `Archive.process_references`, `Archive.property_compliance_iff`

### C123 Every process of an ILCD archive is converted

Each process data set of an archive is converted exactly once, and nothing else is. True if the archive has one folder `processes` and its root folder does not contain the text `processes/`; false of the code for archives with several such folders (only the one of the first entry is read) and for root folders whose name ends with `processes` (nothing is converted and no error is raised).

Approach: `Inputs`: the folder found is the text before the first `processes/`; an occurrence cannot reach over a slash, so it is the folder itself unless its name contains the text.

Status: **partial**. Nothing else is ever converted (delivered_process); all_delivered_iff is the exact condition for all being converted; false of the code in general.

Theorems: `Inputs.delivered_process`, `Inputs.all_delivered_iff`, `Inputs.one_folder_partial`, `Inputs.other_folder_lost`, `Inputs.root_name_lost`

### C124 An archive that cannot be converted says so and does not stop the others

If an archive cannot be opened or has no processes, the error raised says so, and the other archives of the directory are converted. False of the code: the archives behind it are not converted, the first archive of a directory or a single one is reported with an unrelated AttributeError, and a file .xml is accepted as input although its conversion always fails that way.

Approach: `Inputs`: induction over the archives of a directory.

Status: **partial**. False of the code: deliver_stops gives what happens exactly.

Theorems: `Inputs.deliver_all`, `Inputs.deliver_stops`, `Inputs.not_delivered_iff`, `Inputs.xml_accepted`, `Inputs.ilcd_directory_all`

### C125 Every file of a directory that would be accepted alone is converted

Given a directory, the converter takes exactly those files that it accepts when they are given alone, each once, and marks the last and no other as the last one. For ILCD input true of the archives; .xml files are accepted alone but passed over in a directory.

Approach: `Inputs`: the extensions exclude each other; the marks by induction.

Status: **proved**. 

Theorems: `Inputs.ecs_directory`, `Inputs.ilcd_directory`

### C126 Data without a place in ILCD never stop the conversion

The context identifiers, flags and other attributes of EcoSpold2 that ILCD has no field for are put on record, each under its own name, and do not stop the conversion of a file that the format allows. False of the code in four cases: the context of a classification of the activity (the record has no such field), the context of the allocation property of an exchange (the field is read instead of assigned), a required context without its optional file location (None is added to a text) and the context of a company without its identifier; true in all others.

Approach: `Unconverted`: one assignment, then several by induction; which fields a class has is decided on its table; exact conditions of success per function, and where each value is found afterwards.

Status: **partial**. Exact conditions for every record; the code fails for allocation_context_stops, activity_classification (second case), no_location_stops and the company context in generator_ok.

Theorems: `Unconverted.parameter_ok`, `Unconverted.volume_ok`, `Unconverted.property_ok`, `Unconverted.flow_ok`, `Unconverted.flow_recorded`, `Unconverted.intermediate_ok_partial`, `Unconverted.elementary_ok_partial`, `Unconverted.intermediate_recorded`, `Unconverted.elementary_recorded`, `Unconverted.allocation_context_stops`, `Unconverted.allocation_context_error`, `Unconverted.product_classification`, `Unconverted.activity_classification`, `Unconverted.review_ok`, `Unconverted.data_set_ok`, `Unconverted.data_set_recorded`, `Unconverted.entry_ok`, `Unconverted.entry_recorded`, `Unconverted.generator_ok`, `Unconverted.required_context_ok`, `Unconverted.required_context_recorded`, `Unconverted.no_location_stops`, `Unconverted.parameter_recorded`, `Unconverted.volume_recorded`, `Unconverted.property_recorded`

### C127 A text without a language is converted like an English one

The attribute xml:lang may be left out in ILCD and then means English: every field with such a text is converted, with the text and the language. False of the code for eight fields (among them the name of the process, its synonyms and the access restrictions), whose entries ask for the key of a dictionary although the reader delivers a plain text: the conversion stops with a TypeError. The registration number, which never has a language, always stops it. All other fields are read, unless they are empty as well.

Approach: `Shapes`: the value the stream makes of a text element (`XmlStream`), then each way of reading it.

Status: **partial**. Exact condition for every entry and every text; false of the code for the eight entries of needs_language.

Theorems: `Shapes.leaf_value`, `Shapes.entry_reads_partial`, `Shapes.prefix_kept`, `Shapes.needs_language`, `Shapes.registration_number`, `Shapes.others_read`

### C128 Texts in several languages are all read

Comments and descriptions may be given in any number of languages: each with content is read, in order and with its language, and where only one is needed it is the first with content. True of comments and of the names of flows and reviewers; false of the code for the descriptions of flow properties and sources: a second language, or one text without a language, stops the conversion with a TypeError.

Approach: `Shapes`: induction over the texts; the value of the children from `children_kept`.

Status: **partial**. Proved for comments, flows and reviewers; exact condition for flow properties and sources, where the code fails.

Theorems: `Shapes.ensureList_children`, `Shapes.comments_read`, `Shapes.flow_name`, `Shapes.property_name_partial`, `Shapes.property_name_value`, `Shapes.source_name_partial`, `Shapes.second_language_stops`, `Shapes.children_value`

### C129 The unit of an EcoSpold2 value is read as the unit it names

A unit that is a product or quotient of powers of named units is given to the unit library as the same product or quotient, whatever names (with spaces or hyphens) and exponents from 2 to 4 it has, and it is accepted if the library knows it. False of the code for several powers behind a division (kg/m2.a is read as kg/m2 times a; only hp.h gets brackets), for negative exponents, which become a part of the name, and for the units of C130.

Approach: `UnitNames`: replacements of single characters as one map, an exponent is decided by the next two characters, so a text can be cut at every sign; induction over the powers; the values by a grammar of pint.

Status: **partial**. For all products and quotients of powers (names of letters, spaces, hyphens and underscores, exponents up to 4) without the five formulas and without "/hp.h": the text given to pint is that of the same product or quotient, and its value is the product with each power multiplied or divided as its own sign says. Accepted exactly if pint knows the text. False of the code for two powers behind a division (denominator_partial with denominator_differs, horsepower_hours for the only exception) and for negative exponents (negative_exponent). Exponents from 5 on and numbers in units are not covered.

Theorems: `UnitNames.unit_read_partial`, `UnitNames.unit_value_partial`, `UnitNames.accepted_iff`, `UnitNames.denominator_partial`, `UnitNames.denominator_differs`, `UnitNames.horsepower_hours`, `UnitNames.negative_exponent`

### C130 A substance in the name of a unit does not change the rest of the unit

In units like kg N2O/km2 the digits of the formula are no exponents and those of the other units are. False of the code: with one of the five formulas it knows, no digit of the text is made an exponent, so that km2 is read with the prefix not raised to the power (a factor of 1000); any other formula with a digit from 2 to 4 is made a power, which no unit has.

Approach: `UnitNames`: the same lemmas with a formula in front.

Status: **partial**. False of the code; the three theorems say what it does instead: no digit of a text with one of the five formulas becomes an exponent, the value is off by the prefix to the power n-1, every other formula with a digit from 2 to 4 becomes a power.

Theorems: `UnitNames.formula_keeps_digits`, `UnitNames.prefix_not_raised`, `UnitNames.other_formula`

### C131 A unit that was corrected once is not changed by a second correction

The units of UnitConversion in a formula are corrected where the formula is read and once more when the amount is made; they are the same as those of an exchange with the same text. True of all texts without brackets; with brackets there are texts that change again.

Approach: `UnitNames`: invariants of a corrected text: no replaced character, every bracket before an `h`, no `/hp*h`, no exponent left; first occurrences by descent.

Status: **partial**. Proved for all texts without an opening bracket; correct_twice_fails is a text with brackets that is changed again.

Theorems: `UnitNames.correct_twice_partial`, `UnitNames.formula_unit_partial`, `UnitNames.correct_twice_fails`

### C132 Each row of the table of a user decides about its flow

A table of elementary flows that names each flow once is used row by row: the flow gets the target, the unit and the factor of its row (1 for an empty factor or n/a), and a flow without a row is reported. Of several rows for a flow, for a flow that is split among targets, only the last is used, without a message. A table without the column SourceFlowUUID under this very name is a KeyError.

Approach: `MapFile`: `csv.DictReader` on records, the dictionary as a fold in which the last entry with a key counts; spec by places of columns and the last record that names a flow.

Status: **partial**. The table is proved to be used exactly by the last row of each flow, for all tables; every row is used if no flow is named twice. False of the code for flows with several rows (earlier_ignored).

Theorems: `MapFile.csv_exact`, `MapFile.decided`, `MapFile.unique_decides`, `MapFile.absent_reported`, `MapFile.earlier_ignored`, `MapFile.no_column`, `MapFile.user_table`, `MapFile.no_map_type`, `MapFile.no_factor`

### C133 A mapping table is found where the user says it is

A path given to elem_flow_mapping leads to the file that the user means, relative paths from the working directory. True of absolute paths; false of the code for all relative ones: they are looked for in the folder of the program (json) or in its folder conversions (csv), the path is accepted and the conversion stops. A name in capital letters (.CSV) is not accepted.

Approach: `MapFile`: paths as lists of parts, the suffix by the last dot; spec: the file meant from the working directory.

Status: **partial**. Proved for absolute paths; for relative ones the exact condition, and relative_lost: the file of the user is not found.

Theorems: `MapFile.setter_iff`, `MapFile.csv_found_iff`, `MapFile.json_found_iff`, `MapFile.missing_table`, `MapFile.relative_lost`, `MapFile.user_table`

### C134 A flow marked as without a match is reported

A row of the table that says that there is no match makes the conversion report the flow, in both directions. False of the code towards ILCD for the marks NO_FLOW_MATCH_MANUAL and NO_MAPPING and for every mark with a space around it, which the other direction knows: the flow is converted to the target of the row. A row that ends before its MapType counts as a match towards ILCD and stops the conversion from ILCD.

Approach: `MapFile`: the marks of both directions on the decided record.

Status: **partial**. The exact marks of both directions; marks_missed and short_record are the rows that are not reported.

Theorems: `MapFile.decided`, `MapFile.marks_missed`, `MapFile.short_record`, `MapFile.absent_reported`

### C135 The parts of a converter can be exchanged

What a property of a converter gives back can be set again, and what a setter accepts works in the next conversion. False of the code: the setters of iterator, output_manager and output_structure ask for an instance, but the parts are called like classes or looked up by a version, so that no class is accepted, not even the present one, and an accepted instance stops the conversion unless it can be called (or subscripted); mapping accepts no dictionary that sets anything. The input manager and the version can be exchanged, the version only for the one of the format.

Approach: `Settings`: objects by base class and abilities, setters as partial functions, invariants over sequences of assignments.

Status: **partial**. False of the code; proved exactly which assignments are accepted and which of them work.

Theorems: `Settings.default_works`, `Settings.read_back`, `Settings.rejected`, `Settings.rejected_no_effect`, `Settings.use_iff`, `Settings.iterator_exchanged`, `Settings.manager_exchanged`, `Settings.struct_exchanged`, `Settings.version_iff`, `Settings.factory_unknown`, `Settings.factory_known`

### C136 A converter can be printed and shows its options

Printing a converter never fails and shows every option with its format, a name from which the attribute can be told, and its value. True until a mapping configuration has been assigned: the only one accepted, the empty dictionary, makes every later print fail with a TypeError.

Approach: `Settings`: the configuration flag as an invariant over assignments; the text of an option as a map that has an inverse.

Status: **partial**. The lines of the options are proved right; printing works exactly until the empty mapping configuration has been assigned.

Theorems: `Settings.printed_iff`, `Settings.empty_mapping_unprintable`, `Settings.shown_attribute`, `Settings.option_line`, `Settings.option_names`

### C137 The list of flows that were not converted is complete and exact

The list written at the end of a conversion names exactly the elementary flows of the data set that were not converted, whatever else is in the log. True from EcoSpold2 to ILCD for names on one line and identifiers in small letters. False of the code otherwise: a lost flow with a tabulator in its name or capital letters in its identifier is left out; from ILCD to EcoSpold2 a lost flow with a normal or lognormal distribution without a basic variance is left out, because another entry stands between; from ILCD to ILCD nothing is ever listed.

Approach: `ConvLog`: the log as a text of entries, the regular expression as a matcher; spec: adjacent events; induction over the events with a lemma that skips a line.

Status: **partial**. Proved for EcoSpold2 to ILCD with plain names and identifiers; the exact list for the other direction, and the flows that are left out.

Theorems: `ConvLog.found_reported`, `ConvLog.endLog_reported`, `ConvLog.ecs_list_partial`, `ConvLog.ilcd_list`, `ConvLog.ilcd_list_misses`, `ConvLog.list_list_misses`, `ConvLog.tab_not_listed`, `ConvLog.odd_id_not_listed`

### C138 The list of a conversion names no flows of another

The list of flows that were not converted belongs to the conversion it is written for. False of the code for EcoSpold2: the log is named after the data set and continued, so that the list of a later conversion names the flows of all earlier ones with this name again.

Approach: `ConvLog`: the same search on the entries of several conversions.

Status: **partial**. True of a new log; earlier_listed is the exact list of a continued one.

Theorems: `ConvLog.own_log`, `ConvLog.earlier_listed`, `ConvLog.earlier_listed_witness`

### C139 Pedigree scores and basic variance come back from ILCD

ILCD has no place for the pedigree matrix and the basic variance, so they are written into the comment of the exchange. Converted back, each score has the name it had and the variance the value it had. True of the code for attributes in the usual order, a variance without sign and exponent and a comment of at most 500 characters. False otherwise: scores are named by their place in the file, so that attributes in another order exchange their scores; a variance of 1e-05 comes back as 1; one with a sign stops the conversion; of a longer comment nothing is read.

Approach: `UncText`: entries with an index joined into one text, patterns as matchers, the reading as a function of the text; spec: occurrence of key words, lines; lemmas on texts whose first character occurs once.

Status: **partial**. Exact result for comments within the limit; variance_cut, variance_sign, scores_named_iff and long_lost say when it is not the value that was given.

Theorems: `UncText.pedigree_back_partial`, `UncText.pedigree_only_partial`, `UncText.variance_plain`, `UncText.variance_cut`, `UncText.variance_exponent`, `UncText.variance_sign`, `UncText.scores_by_place`, `UncText.scores_named_iff`, `UncText.scores_swapped`, `UncText.long_lost`

### C140 A round trip adds no uncertainty comment of its own

After a conversion to ILCD and back the comments of an uncertainty are those it had, in every language. False of the code: with a basic variance there is always a comment, of a semicolon at least; the English comments of the exchange follow in it; comments in other languages are not read.

Approach: `UncText`: the exact remainder of the text after the cuts.

Status: **partial**. False of the code; the theorems give the exact comment that comes back.

Theorems: `UncText.pedigree_back_partial`, `UncText.comment_always`, `UncText.comment_added`, `UncText.comment_added_written`, `UncText.pedigree_only_partial`, `UncText.comments_back_partial`

### C141 Distributions ILCD does not know come back

A beta, gamma, binomial or undefined distribution is written as a text and comes back with its kind and its parameters. True of the code if the comment of the exchange has at most 500 characters; a longer comment is split into pieces without line ends and the distribution is lost without a message.

Approach: `UncText`: the same text, the parameters as a list of names and values; induction over the list.

Status: **partial**. True within the limit of 500 characters, false beyond it.

Theorems: `UncText.other_back_partial`, `UncText.kind_back`, `UncText.params_back`, `UncText.other_silent_iff`, `UncText.other_incomplete_stops`, `UncText.long_other_lost`, `UncText.other_back_false`

### C142 Every parameter is written

A parameter of an EcoSpold2 data set is a variable of the ILCD data set, under its name if it has one. True of parameters with a name or a formula. False of the code for the others (their names are optional in EcoSpold2): the result is the same as without them, their amounts, units and comments are lost.

Approach: `Params` on top of `EcsVars`: the fold over all quantities with one parameter taken out.

Status: **partial**. Proved for parameters with a name or a formula; nameless_lost: the others leave no trace.

Theorems: `Params.parameter_written_partial`, `Params.nameless_lost`

### C143 The unit of a parameter comes back

ILCD has no unit for variables, it is written into the comment in brackets. Converted back, the parameter has the unit it had. True of units whose text has no blank, slash, star or point if no comment in a language after English has brackets. False of the code otherwise: a composed unit comes back as a text that is no unit (kg_per_m3), a unit without dimension is lost, a text in brackets in a French comment becomes the unit.

Approach: `Params`: the text of the unit as replacements, the comment as entries with an index, the patterns as matchers; spec: brackets on a line.

Status: **partial**. The exact condition on the text of the unit; false of the code for composed units, units without dimension and texts in brackets in later languages.

Theorems: `Params.unit_back_partial`, `Params.unit_text_iff`, `Params.unit_written_iff`, `Params.dimensionless_lost`, `Params.bracketed_comment_is_unit`, `Params.composed_unit_changed`, `Params.no_unit_no_name`

### C144 The comments of a parameter come back

The comments of a parameter are those it had after a conversion to ILCD and back, in every language. True, joined by lines and without the blanks around the English ones, for comments without brackets that are within the limit. False of the code for comments with brackets: no comment that is read has a pair of brackets on a line, all text between the first and the last is removed.

Approach: `Params`: the same texts in both directions; spec: the visible comments of a language in order.

Status: **partial**. Proved for comments without brackets and within the limit, of parameters without uncertainty; brackets_lost for the others.

Theorems: `Params.comments_back_partial`, `Params.brackets_lost`

### C145 Different conversions of units have different names

A conversion of units is a variable with a name made of the texts of the units; two conversions of different units have different names, so that each formula uses its own factor. True of all units whose symbols have no digit, underscore, blank or operator. False of the code otherwise: EUR2005 and EUR ** 2005 have one name. Two conversions with one name and different factors leave one of them without its factor.

Approach: `Params`: units as products of powers in the spec; the name as a list of tokens, read back token by token.

Status: **partial**. Proved for all units with plain symbols; conversion_names_collide for symbols with digits, and what follows of it for the factors.

Theorems: `Params.conversion_names_distinct_partial`, `Params.conversion_names_collide`, `Params.collision_wrong_factor`

### C146 Variables written to ILCD can be converted back

Each variable name that Lavoisier writes to ILCD is accepted on the way back. False of the code: ILCD allows fifty characters and EcoSpold2 forty; names of the former kind are not shortened, the conversion stops with a ValueError. The exact lengths are proved, also of the names made for conversions of units and for amounts in another unit.

Approach: `Params` with the validators of the names: lengths.

Status: **partial**. False of the code; the exact condition on the lengths is proved.

Theorems: `Params.name_written_iff`, `Params.conversion_back_iff`, `Params.converted_back_iff`, `Params.converted_name_stops`

### C147 An uncertainty that the format allows does not stop the conversion

Every uncertainty of an EcoSpold2 data set is converted, and what is written for it can be read back. False of the code: a pedigree matrix with a basic variance but without the variance with pedigree is a KeyError (the values are read for a comparison that only writes a warning), so is a missing parameter of a beta, gamma, binomial or undefined distribution; a pedigree matrix without five scores of one digit is written and stops the way back with an AttributeError. The exact conditions and errors are proved.

Approach: `UncText`: when the functions that write and read the texts of an uncertainty give a result; spec: a table of the distributions, five scores in brackets.

Status: **partial**. False of the code; the exact condition in both directions and the errors are proved.

Theorems: `UncText.unc_converted_iff`, `UncText.wrong_score`, `UncText.otherParams_iff`, `UncText.unc_silent_iff`, `UncText.pedigree_stops_iff`, `UncText.four_scores_stop`, `UncText.missing_variance_stops`

### C148 Production volumes are stated for every product

The production volume of every product of an EcoSpold2 data set is stated in the ILCD process with its name, number and unit, in the order of the products, and its comments are kept. Proved for all lists of products whose first name can be read, as one English text when the limits of lengths are ignored or kept; a volume that is no number, or a first name without a language beside others, stops the conversion.

Approach: `Products` on top of `XmlStream`, `Shapes` and `LangText`: the fold over the products with the running number; spec: one line for each volume, on attributes and texts of the element.

Status: **proved**. For all products whose first name can be read; the other branches are stated as errors.

Theorems: `Products.volume_stated`, `Products.volumes_stated`, `Products.volume_comments_kept`, `Products.volume_no_number`, `Products.name_unreadable`, `Products.no_name`

### C149 The uncertainty of a production volume is stated

If the production volume of a product is uncertain, the statement of the volume says so. False of the code: the text asks for an attribute of the uncertainty that no uncertainty has, so that the statement is the same with and without it; an uncertainty that cannot be read still stops the conversion.

Approach: `Products`: the attributes an uncertainty can have.

Status: **partial**. False of the code: the statement does not depend on the uncertainty.

Theorems: `Products.volume_uncertainty_lost`, `Products.volume_uncertainty_not_read`, `Products.volume_uncertainty_stops`

### C150 Links to activities and CAS numbers of products are kept

The activity a product is linked to is noted in the comment of the exchange, and the CAS number of a product in its flow data set. False of the code: both are attributes in EcoSpold2 and are asked for as child elements, so that neither is ever written, whatever the product.

Approach: `Products`: the keys of the value of an element; spec: attributes and children of the element.

Status: **partial**. False of the code: never written, for every element without children of these names.

Theorems: `Products.link_and_cas_are_attributes`, `Products.link_lost`, `Products.cas_lost`, `Products.sample_loses`, `Products.link_of_child`

### C151 A product keeps its names and synonyms

The flow data set made for a product has its names and synonyms in their languages. True of the text of the first name if it is English, and of the texts of the synonyms. False of the code otherwise: the first name is given as English whatever its language, other names and the languages of the synonyms are lost, and a product without synonyms gets an empty element of synonyms.

Approach: `Products`: names as a list of texts with languages.

Status: **partial**. Proved for an English first name; the exact result and what it does not depend on are proved.

Theorems: `Products.flow_of`, `Products.name_kept_partial`, `Products.languages_lost`, `Products.german_name_as_english`, `Products.no_synonyms`

### C152 The names of the files do not stop a conversion

Every data set that conforms to its format can be saved: the names made for its log, its file and its list of flows are names the file system accepts, and no data set is placed outside the directory asked for. No name made of a data set has a slash, and data sets in ASCII within the limits of EcoSpold2 are always saved. Otherwise false of the code: names count in bytes (up to 255), a slash counts five, the log takes the base name of an ILCD data set whatever its length, and the list of flows not converted has a longer name than the log, so that a conversion can fail after its data set has been saved; the suffix of an archive of several data sets is taken as it is.

Approach: `FileNames`: the names and the calls that open files, with the limit of the system in bytes; spec: width of a text with slashes spelled out, the free name.

Status: **partial**. False of the code for long names; the two saved_iff theorems are the exact conditions, plain_saved_partial the case of ASCII names within the limits of EcoSpold2.

Theorems: `FileNames.ecs_title`, `FileNames.ilcd_title`, `FileNames.no_slash`, `FileNames.ecs_output_eq`, `FileNames.ecs_saved_iff`, `FileNames.ecs_files`, `FileNames.ilcd_saved_iff`, `FileNames.ilcd_files`, `FileNames.archive_saved_iff`, `FileNames.plain_saved_partial`, `FileNames.long_name_stops`, `FileNames.saved_and_failed`, `FileNames.wide_names_fail`, `FileNames.slashes_fail`, `FileNames.files_stay`, `FileNames.no_title`

### C153 The start and the end of the included activities come back in their languages

The texts on the start and the end of the included activities of an EcoSpold2 data set, converted to ILCD and back, are the same texts in the same languages. False of the code unless the data set is in English alone and each text is one line: the texts of all languages are joined and marked as English, a start of several lines or without an end stays in the comment, and of an end of several lines only the first is recognised.

Approach: `Included`: all descriptions of a technology in the order of the file; spec: what is said in one language.

Status: **partial**. False of the code; kept_iff is the exact condition on the languages for texts of one line, the other theorems say what happens to texts of several lines and to a start without an end.

Theorems: `Included.part_read`, `Included.languages_joined`, `Included.kept_iff`, `Included.language_lost`, `Included.several_lines`, `Included.end_lines`, `Included.no_end`, `Included.written_whole`, `Included.plain_kept`, `Included.back_iff`

### C154 The kind of calorific value an activity states is that of its energy flows

An EcoSpold2 activity says with energyValues whether its calorific values are undefined, net or gross. The flow property in which a product or elementary flow in a unit of energy is written in ILCD is that kind (net if none is stated), for every activity and whatever was converted before it by the same converter.

Approach: `Energy`: the attributes of the mapping class over a sequence of data sets; spec: the kind stated and the name of its flow property.

Status: **partial**. False of the code for gross calorific values (the attribute is set under another name than it is read); kind_kept_iff is the exact condition, unit_kind says the choice itself would be right.

Theorems: `Energy.kind_ignored`, `Energy.unit_kind`, `Energy.always_net`, `Energy.kind_kept_iff`, `Energy.energy_converted`

### C155 The numbers of exchanges, production volumes, parameters and variables in the log are those of the data sets

At the end of a conversion of EcoSpold2 to ILCD the log says 'converted/found' for each kind of element. For products, elementary exchanges, production volumes and parameters the found number is that of the data sets read and the converted number that of the ones written; for variables the converted number is that of the values with a variable or formula if they are converted at all and nought else; for any data sets in any number.

Approach: `Stats`: every step that counts, over all data sets; spec: numbers of elements in the data sets.

Status: **proved**. For all lists of data sets and options; found variables include formulas for production volumes that are not there.

Theorems: `Stats.products_counted`, `Stats.elementary_counted`, `Stats.volumes_counted`, `Stats.variables_counted`

### C156 The log does not report more uncertainties or properties as converted than there are

At the end of a conversion of EcoSpold2 to ILCD the number of uncertainties reported as converted is that of the uncertainties written, and neither it nor the number of properties reported as converted is negative or above the number found.

Approach: `Stats`: the counter of uncertainties through creation of variables and merging; spec: the uncertainties of what is written.

Status: **partial**. False of the code; exact for exchanges and flow properties if exchanges are not added and ILCD knows the distributions; the converted number can be any negative number, or exceed the found one.

Theorems: `Stats.uncertainties_counted_partial`, `Stats.uncertainties_at_most`, `Stats.properties_counted`, `Stats.uncertainties_negative`, `Stats.uncertainties_exceed`, `Stats.properties_exceed`, `Stats.parameters_uncounted`, `Stats.sums_counted`

### C157 An EcoSpold2 file with its mandatory elements gives an ILCD data set with all of its mandatory fields

If every value computed from the file is accepted by the field it is assigned to and no single-valued field is given two, then the ILCD data set can be written just when the file delivers the identifier of the activity, its name, the short name of the geography and the file attributes, whatever else the file contains or leaves out and in whatever order.

Approach: `Assign` and `Fill`: the assignments of every entry of the mapping, and a conversion as the list of them; spec: the four elements, by path. The general part says when a list of assignments makes a complete data set.

Status: **proved**. For all sequences of delivered elements; that the values are accepted and the assigned instances complete is the hypothesis of the statement. The table of assignments is transcribed from the mapping.

Theorems: `Assign.toIlcd_written_iff`, `Assign.toIlcd_complete`, `Assign.toIlcd_keys`, `DotDict.written_iff_mandatory`

### C158 An ILCD process file with its mandatory elements gives an EcoSpold2 data set with all of its mandatory fields

An ILCD process file that has the elements ILCD demands, with values accepted by the fields they are assigned to, is converted to an EcoSpold2 data set that can be written. False of the code: EcoSpold2 asks for the type of data set, the end of validity, contacts with identifiers, the copyright and an intermediate exchange, for which the code has no default; a process with elementary flows alone cannot be written. The exact list of elements that decides is proved.

Approach: `Assign` and `Fill`: the same for ILCD to EcoSpold 2; spec: the list of elements that decides.

Status: **partial**. False of the code; toEcs2_written_iff is the exact list of elements that decides, no_intermediate_not_written the case of elementary flows alone.

Theorems: `Assign.toEcs2_written_iff`, `Assign.no_intermediate_not_written`, `Assign.toEcs2_keys`

### C159 A conversion stops over repeated elements just when two of them give the same single-valued field

If every value computed from the file is accepted by the field it is assigned to, a conversion goes through when no two delivered elements give the same single-valued field of the output (and no source used as the icon has several files), and stops with a ValueError otherwise, wherever in the file the elements are. Two system model names, which EcoSpold2 allows, stop it.

Approach: `Assign` and `Fill`: spec: the single-valued fields with the elements that give them.

Status: **proved**. For all sequences of delivered elements with accepted values; the lists of single-valued fields are part of the statement and proved to be those of the tables.

Theorems: `Assign.toIlcd_converts_iff`, `Assign.toEcs2_converts_iff`, `Assign.toIlcd_repeat_stops`, `Assign.toEcs2_repeat_stops`, `Assign.two_system_models_stop`, `DotDict.fills_iff_once_each`

### C160 An ILCD file is recognised just when its names carry a language

Before an ILCD file is converted its name, version and the numbers and names of its exchanges are read. This succeeds exactly if the first base name has an attribute such as xml:lang and every exchange has an internal number and one flow with one short description with an attribute; the name is then the text of the first base name, the version the first two parts of the attribute, and the names those of the exchanges in the order of the file. A description in two languages or without xml:lang, both permitted by ILCD, stops the conversion.

Approach: `FirstPass` on top of `XmlStream`: spec: which elements carry a text with an attribute (`Labelled`, `FlowOf`), by paths of the document.

Status: **proved**. For all well-named documents: the exact condition and the result. That some permitted documents are refused is part of the statement.

Theorems: `FirstPass.ilcd_first_pass_iff`, `FirstPass.ilcd_first_pass`, `FirstPass.two_descriptions_stop`, `FirstPass.plain_description_stops`, `FirstPass.plain_name_stops`

### C161 Allocations name the co-products of their own file

The names in which the allocations of an ILCD file are written are those of the exchanges of this file with the number stated, whatever was converted before. True of every file with exchanges numbered apart. False of the code otherwise: of two exchanges with one number the later gives the name, and a file without exchanges is refused if it is the first one and takes the names of an earlier file if not.

Approach: `FirstPass.fileInfo`: spec: the last exchange with a number; what the class keeps between files is a parameter.

Status: **partial**. Proved for every file with exchanges, with the last exchange of a number giving the name; for files without exchanges the statement is refuted (refused, or the names of an earlier file).

Theorems: `FirstPass.names_of_file`, `FirstPass.names_by_number`, `FirstPass.fileInfo_iff`, `FirstPass.no_exchanges_stop`, `FirstPass.no_exchanges_old_names`, `FirstPass.after_error`

### C162 An EcoSpold2 file is recognised just when its first activity name can be read

Before an EcoSpold2 file with data sets of one kind is converted its name, version and default language are read. For activities this succeeds exactly if the first activity name is not empty or has a language; for child activities only if it has an attribute. The name is the text of the first one, version and language those of the first file attributes; a file without default language takes that of the file before it.

Approach: `FirstPass` with the table of EcoSpold2: spec: `NameFor` by the kind of data set.

Status: **proved**. For all well-named documents whose data sets are of one kind.

Theorems: `FirstPass.ecs2_first_pass_iff`, `FirstPass.ecs2_first_pass`, `FirstPass.plain_child_stops`, `FirstPass.plain_activity_passes`, `FirstPass.language_kept`

### C163 Every product of an EcoSpold2 data set comes back from ILCD

If an EcoSpold2 data set is converted to ILCD and the result back to EcoSpold2, its products come back one for one and in their order, each with the identifier it had, the value in the unit of ILCD of its dimension, an uncertainty of the same kind with the parameters of that value, and the unit of EcoSpold2 that belongs to the flow property of the flow. No other product is written. This holds whether or not equal elementary flows are summed.

Approach: `RoundTrip` puts `EcsFlows`, `FlowFiles`, `RefUnits`, `Refs`, `Uuid` and `IlcdFlows` together; spec: `ProductBack`, pairwise along the two lists. The references found by the first conversion are shown to lead the second to the file of the same flow.

Status: **proved**. For identifiers in small letters, groups of the format, targets of elementary flows that are no products, and numbers that are read as they were written (`Setting`, `Legible`). Name and groups are C165 and C164, the quantity C167.

Theorems: `RoundTrip.products_back`, `RoundTrip.products_back_merged`

### C164 The groups of products survive a conversion to ILCD and back

A product of an EcoSpold2 data set has the same input or output group after a conversion to ILCD and back. False of the code: inputs of the groups 1 to 3 become 5, outputs of group 5 become 2, and an output keeps the groups 2 and 3 only if the first exchange with the same flow and properties is no waste or a waste. The exact condition is proved.

Approach: `RoundTrip`: spec: `groupsBack`, a table in terms of the source alone, and `SameGroups`.

Status: **partial**. False of the code; same_groups_iff is the exact condition, not_kept a waste that comes back as a by-product.

Theorems: `RoundTrip.products_back`, `RoundTrip.same_groups_iff`, `RoundTrip.same_groups_own`, `RoundTrip.not_kept`

### C165 The names of products survive a conversion to ILCD and back

A product of an EcoSpold2 data set has the same name after a conversion to ILCD and back. True if no two exchanges give the same flow with the same properties two names. False otherwise: the later ones come back with the name of the first.

Approach: `RoundTrip`: spec: `First`, the first exchange of the same flow with the same properties.

Status: **partial**. False of the code; same_name_iff is the exact condition, names_back the case of unambiguous names, not_kept a product that takes the name of another.

Theorems: `RoundTrip.products_back`, `RoundTrip.same_name_iff`, `RoundTrip.names_back`, `RoundTrip.first_unique`, `RoundTrip.not_kept`

### C166 Elementary exchanges come back from ILCD by way of both tables

If an EcoSpold2 data set is converted to ILCD without summing equal flows and back, those elementary exchanges come back whose flow has a target in the first table that has a target in the second, in their order, with target, name and unit of the second table and the value multiplied by both factors and that of the unit of ILCD. The flow is the one of the source exactly if the tables are inverse for it, and the quantity exactly if factors and units make up for each other. Whether or not equal flows are summed, there or at the end, the total of every flow of the second table in every direction is the sum over all exchanges of the source of value times both factors times the units.

Approach: `RoundTrip`, `RoundSums`: spec: `Rows`, `ElementaryBack`, `Adds`.

Status: **proved**. elementary_total holds with and without summing on the way there, elementary_total_merged with summing at the end of the way back. Same assumptions as C163 (Setting, Legible).

Theorems: `RoundTrip.elementary_back`, `RoundTrip.same_flow_iff`, `RoundTrip.same_elementary_quantity_iff`, `RoundTrip.elementary_total`, `RoundTrip.elementary_total_merged`

### C167 Products are the same quantities after a conversion to ILCD and back

Amount and unit of a product describe the same quantity after a conversion of an EcoSpold2 data set to ILCD and back. True of all units of the tables but two. False of money and of mass times time: euros of 2005 are divided by 1.11 and come back as euros of 2005; kilogram days are divided by 365.25 and come back as kilogram days.

Approach: `RoundTrip` and `RefUnits`: spec: `synonyms` and `strangers`, pairs of unit names; the tables are proved to give no other pair.

Status: **partial**. False of the code for two units (money_back, mass_time_back); same_quantity_partial for all others of the tables, stranger_quantity_iff exactly when the two would be kept.

Theorems: `RoundTrip.unit_back`, `RoundTrip.quantity_back`, `RoundTrip.same_quantity_partial`, `RoundTrip.stranger_quantity_iff`, `RoundTrip.money_back`, `RoundTrip.mass_time_back`

### C168 Products of an ILCD data set come back from EcoSpold2

If an ILCD data set is converted to EcoSpold2 and the result to ILCD again, exactly those products come back whose flow property has a unit in EcoSpold2, in their order, whether or not equal elementary flows are summed in either conversion: with the identifier of their flow, the value multiplied by the factor between the units, the distribution of their uncertainty with its width in the same proportion, as a reference flow exactly if they were one, and with a reference that leads to a file of that flow, named by an exchange of the flow. They are numbered anew, from 1 on; the elementary exchanges have higher numbers and no number is used twice.

Approach: Both conversions of exchanges are joined (Model/RoundIlcd). The first gives the exchanges in the middle with their groups, the second is that of C163 to C167. The theorem is proved for lists of any length from the invariants of both.

Status: **proved**. products_back and products_numbered under the assumptions of Setting (one key, identifiers in small letters, no product with the identifier of an elementary flow) and Legible (numbers are read as written).

Theorems: `RoundIlcd.products_back`, `RoundIlcd.products_numbered`

### C169 Direction and type of products survive a conversion to EcoSpold2 and back

A product of an ILCD data set has the same direction and its flow the same type after a conversion to EcoSpold2 and back. False of the code: a reference flow that is an input, as in the treatment of a waste, comes back as an output, and a waste that is an input or a reference flow comes back as a product. Other flows come back as products. The exact conditions are proved.

Approach: From products_back: the direction and the type after both conversions are given by dirBack and typeBack, which are compared with those of the source. A witness loses both.

Status: **partial**. False of the code (treatment_lost); direction_kept_iff, type_kept_iff and type_back give the exact conditions.

Theorems: `RoundIlcd.direction_kept_iff`, `RoundIlcd.type_kept_iff`, `RoundIlcd.type_back`, `RoundIlcd.treatment_lost`

### C170 Products are the same quantities after a conversion to EcoSpold2 and back

A product of an ILCD data set has the same flow property and value after a conversion to EcoSpold2 and back. False of the code: amounts of money are divided by 1.11, and gross calorific values come back as net ones and normal volumes as volumes. A value is kept exactly if the unit of EcoSpold2 has the size of the unit of ILCD, which holds for all units of the tables but two; a flow property is kept exactly in the other cases.

Approach: The flow property and the factor are followed through the tables of units, for every entry; the sizes of units are parameters. The theorems on values start from products_back.

Status: **partial**. False of the code (money_back, property_kept_iff). Exactly described by value_kept_iff and property_back; value_kept_partial for the units with another name. Four units of the table have no counterpart (counterpart); what pint makes of them is not modelled.

Theorems: `RoundIlcd.value_back`, `RoundIlcd.value_kept_iff`, `RoundIlcd.value_kept_partial`, `RoundIlcd.money_back`, `RoundIlcd.property_back`, `RoundIlcd.property_kept_iff`, `RoundIlcd.counterpart`

### C171 Elementary exchanges of an ILCD data set come back by way of both tables

If an ILCD data set is converted to EcoSpold2 and the result to ILCD again without summing, exactly those elementary exchanges come back whose flow has a row in the first table that has a row in the second, in their order, with the flow of the second table, their direction, and the value multiplied by both factors and that of the unit of the second table. With summing, in either conversion or both, the total of every flow in every direction is the same, provided that rows of the first table with the same flow have the same unit. False otherwise: a kilogram and a gram come back as two kilograms, or as 1.001 kilograms if they are summed in the middle.

Approach: The total is followed back from the merged groups of the second conversion to the exchanges in the middle, and from those to the exchanges of the source, by sums over keys.

Status: **partial**. elementary_total holds with SameUnits if the first conversion sums; without SameUnits it is false (total_depends_on_summing). elementary_back needs no such condition.

Theorems: `RoundIlcd.elementary_back`, `RoundIlcd.elementary_total`, `RoundIlcd.total_depends_on_summing`

### C172 The uncertainty of a flow property is that of its value

An uncertainty written in ILCD for a flow property is the distribution of the value written: that of the EcoSpold2 property scaled by the factor by which the amount was converted, or, for a property given per dry mass whose uncertainty and that of the dry mass are lognormal, the distribution of their product. An uncertainty that ILCD has a word for is missing exactly when the property is given per dry mass and the dry mass has an uncertainty that is not lognormal together with that of the property. The values are those of the conversion without uncertainties. The conversion stops if a lognormal content is zero, or its variance is, while the dry mass is lognormal.

Approach: The loops over properties are modelled again with amounts that carry an uncertainty and a factor; forgetting both gives the conversion of C75 to C77 (`convert_erase`). An invariant over the loops says which of the steps each property has gone through. Distributions are measures on the reals, from the model of uncertainties.

Status: **partial**. False where the uncertainty is dropped or the conversion stops; both conditions are proved exact or necessary, with witnesses (`uncertainty_lost`, `zero_content_stops`).

Theorems: `PropUnc.convert_erase`, `PropUnc.uncertainty_exact`, `PropUnc.uncertainty_missing_iff`, `PropUnc.lognormal_zero_stops`, `PropUnc.convert_succeeds`, `PropUnc.zero_content_stops`, `PropUnc.uncertainty_lost`

### C173 The uncertainty of the variable of a property is that of the amount of the source

A variable made for a property with a formula carries the uncertainty of the amount in EcoSpold2, before conversion, except exactly when the property is given per dry mass and both are lognormal: then the variable, with the value of the source, carries the variance of the product.

Approach: The model keeps the uncertainty that the copy of the amount sees beside that of the amount; steps that change it in place change both.

Status: **partial**. False in the case named; `variable_uncertainty_iff` is the exact condition and `variable_wrong` a witness.

Theorems: `PropUnc.variable_uncertainty_iff`, `PropUnc.variable_wrong`

### C174 The uncertainty of a property in EcoSpold2 is that of its amount

A property of an exchange that comes from the file of its flow has the distribution that the file gives for its value, and there is one exactly if the file has one. It is the distribution of the amount written exactly if the amount is that of the file, or the content was divided by a dry mass of 1: a content that is divided by another dry mass keeps the distribution from before the division. The masses that are computed from an uncertain water content are certain. The conversion stops exactly if a property that EcoSpold2 knows has no number or unit, or lacks parameters of its uncertainty, or is lognormal with a standard deviation that is not positive.

Approach: The conversion of C78 is modelled again with uncertainties; forgetting them gives the former (`convert_plain`). Distributions are measures on the reals. That scaling changes them is proved for every finite measure without an atom at zero (`Uncertainty.scale_eq_iff`).

Status: **partial**. False of contents divided by a dry mass other than 1; `uncertainty_of_value` is the exact condition and `amount_outside_bounds` a witness.

Theorems: `IlcdPropUnc.convert_plain`, `IlcdPropUnc.convert_iff`, `IlcdPropUnc.uncertainty_of_file`, `IlcdPropUnc.uncertainty_of_value`, `IlcdPropUnc.convert_succeeds_iff`, `IlcdPropUnc.amount_outside_bounds`

### C175 A file that was written can be read

Every data set is written as a document that an XML parser takes. This is true exactly when all texts and all values of attributes consist of characters that XML allows: markup, quotes and line ends in texts do no harm, a control character makes the whole file unreadable.

Approach: The serialiser and the parser are both modelled on characters. Induction over the elements shows that the parser, at the position where an element was written, takes exactly the written text.

Status: **partial**. False for texts with control characters (`written_unreadable`); `written_readable_iff` is the exact condition.

Theorems: `XmlWrite.written_readable_iff`, `XmlWrite.written_readable_partial`, `XmlWrite.written_unreadable`, `XmlWrite.reference_iff`, `XmlWrite.reference_not_ended`, `XmlWrite.document_ends`

### C176 What is read of a written file is what was written

Reading a written file delivers, under every path that is asked for, the values that were written there, each once and in their order. Values are the same up to prefixes, except that texts of white space and the text of an element with children are lost, and that ends of lines become line feeds.

Approach: `back` says by recursion on the dictionary what is read of it; the document that is parsed is shown to stand for the dictionary element by element (`Stands`), and the theorem about the reader (C22) does the rest.

Status: **partial**. Proved for all dictionaries with `back` as the value read. A text is unchanged exactly when it shows something and has no carriage return (`text_back_iff`); `written_lost` has the other cases.

Theorems: `XmlWrite.written_read_back`, `XmlWrite.written_delivered`, `XmlWrite.text_back_iff`, `XmlWrite.language_back`, `XmlWrite.written_lost`

### C177 Attributes come back as they were written

The value of an attribute that is no declaration of a namespace is read exactly as it was written, with white space, quotes, markup and ends of lines of any kind.

Approach: Follows from the form of `back` (C176): local names of the attributes of one element are distinct.

Status: **proved**. For dictionaries that stand for an element; composed with reading by C176.

Theorems: `XmlWrite.attribute_back`, `XmlWrite.written_read_back`

### C178 No text can change the elements of a file

Whatever the texts and the values of attributes contain, the elements that are read are those that were written, with the same names, attributes, children and order. No text can end its element, open another or become a comment.

Approach: `Same` relates what was written to what is read without reference to the serialiser; induction over the tree.

Status: **proved**. Texts with characters that XML does not allow make the file unreadable and so do not change it either (`structure_kept_iff`).

Theorems: `XmlWrite.structure_kept`, `XmlWrite.structure_kept_iff`

### C179 The data sets of both formats are valid documents

The document of any data set of ILCD (with and without the extensions of openLCA) or EcoSpold2 (with and without user master data) has valid names, declares every prefix it uses, names no attribute twice and no child in two ways, so that it is written and can be read with its values under their paths.

Approach: The names of the classes are checked in the tables of the formats by the kernel; induction over the nodes of the data set lifts this to the documents.

Status: **proved**. Readable up to the characters of the texts (C175). The values of fields are numbers, texts, entries with language, index or name, and lists of them (`fields_fit`). Classes of openLCA need the structure that declares their prefix (`olca_undeclared`).

Theorems: `XmlWrite.ilcd_file`, `XmlWrite.ecs2_file`, `XmlWrite.fields_fit`, `XmlWrite.olca_undeclared`

### C180 The tags of an exchange are named in its comment

The comment of an ILCD exchange has a line that names the tags of the EcoSpold2 exchange, all of them and in order.

Approach: The value under `tag` is followed from the element through the reader for no, one and several tags.

Status: **partial**. False for a single tag: it is spelled letter by letter (`tag_spelled`, `tag_not_named`). `tags_named_iff` has the exact condition. A blank tag among several stops the conversion (`blank_tag_stops`).

Theorems: `ExchComments.tags_named_partial`, `ExchComments.tags_named_iff`, `ExchComments.tag_spelled`, `ExchComments.no_tags`, `ExchComments.blank_tag_stops`, `ExchComments.tag_not_named`

### C181 The comment of an exchange says all that is put into it

In each language the comment of an exchange in ILCD consists of the line of the tags, the texts of the uncertainty, every comment of the EcoSpold2 exchange and every comment of its production volume, each as a paragraph of its own and in this order. There is one text for each language with paragraphs and none for others.

Approach: `Paragraphs` describes the texts of a language by their indices, without the merging of the field; lists of entries with increasing indices are put together by `paragraphs_append`.

Status: **proved**. For running numbers from 1000 on, texts of the uncertainty with indices from 0 to 999 (those of `UncText` are, `unc_range`), and texts that keep the limit of 500 characters or a run that ignores it; texts that are longer are split (C05, C06).

Theorems: `ExchComments.exchange_says`, `ExchComments.exchange_ok_iff`, `ExchComments.exchange_entries`, `ExchComments.entries_paragraphs`, `ExchComments.unc_range`

### C182 The comments of ILCD exchanges reach EcoSpold2

In each language the comment of the exchange in EcoSpold2 consists of the comments of the ILCD exchange, and in English of the lines that name its location, function, source and derivation. A comment that was converted from EcoSpold2 to ILCD comes back unchanged.

Approach: The values are followed from the element through the reader; the paragraphs as in C181. The way back composes `exchange_says` with `comment_kept`.

Status: **partial**. False if one of the four elements is present and empty: the conversion stops with a KeyError (`empty_info_stops`, `empty_location_stops`); `ilcd_ok_iff` says that this is the only case. `comment_back` is for comments that keep the limit of 500 characters.

Theorems: `ExchComments.ilcd_says_partial`, `ExchComments.ilcd_ok_iff`, `ExchComments.empty_info_stops`, `ExchComments.empty_location_stops`, `ExchComments.comment_kept`, `ExchComments.comment_back`

### C183 Exchanges that are summed keep their comments

When elementary exchanges of the same flow are summed, the comments of all of them are said in the sum, each in its language and once.

Approach: `merge_entries` gives the entries of the sum; their paragraphs as in C181.

Status: **partial**. All the texts are kept, but those of the other exchanges are said in English whatever their language, joined into one paragraph (`merged_texts`, `merged_language_lost`), and the texts of the uncertainty of the first are said once more for each exchange added (`uncertainty_repeated`, `merged_heading_twice`).

Theorems: `ExchComments.merged_texts`, `ExchComments.merged_says`, `ExchComments.uncertainty_repeated`, `ExchComments.merged_language_lost`, `ExchComments.merged_heading_twice`

### C184 The details of a converted review state its type, scopes, methods, indicators and details

The details of the EcoSpold2 review made from an ILCD review state its type, each scope with its validation methods, each data quality indicator with its value and each text of its details in its language, every one under an index of its own, and nothing else. The other details are said in their languages.

Approach: The values are followed from the element through the reader; `Stated` in the specification lists index, language and text of all that should be there. Texts with different indices are collected without merging (`addMerged_fresh`).

Status: **proved**. For scopes, methods and indicators with the attributes that the schema demands, two-letter languages, texts of details without the lines of version and date (those are in C89) and texts that keep the limit of 32000 characters or a run that ignores it. An indicator without value stops the conversion (`indicator_value_needed`). The entries are written in the order of their numbers as texts, so that details with numbers from 1000 to 1999 come before the type (`review_written`); their indices have the intended order.

Theorems: `ReviewTexts.details_stated`, `ReviewTexts.other_said`, `ReviewTexts.indicator_value_needed`, `ReviewTexts.review_written`

### C185 The text of a review tells which scopes, methods and indicators it had

Two ILCD reviews whose EcoSpold2 details have the same text of scopes have the same scopes with the same methods in the same order; the same holds for the indicators and their values.

Approach: The text is a list of lines; lines of methods are told from those of scopes by the second tab.

Status: **proved**. For names without line feeds, names of scopes that do not begin with a tab and names of indicators without colons; all the names of the format are such (`format_names`). Without the condition they are not told apart (`scopes_ambiguous`).

Theorems: `ReviewTexts.scopes_readable`, `ReviewTexts.indicators_readable`, `ReviewTexts.format_names`, `ReviewTexts.scopes_ambiguous`

### C186 The details of a review of EcoSpold2 are said in ILCD in each language

The details of the ILCD review made from a review of EcoSpold2 have one text for each language. The English text begins with the lines on the date and the version of the review; then come, in each language, the texts of the review with their variables filled in, one paragraph for each index, by increasing index.

Approach: The values are followed from the element through the reader into the field; date and version have negative indices, so that their paragraphs come first (`paragraphs_append`).

Status: **proved**. For texts with an index that is not negative, a language of the list and visible text, and for texts and variables without stray braces as in C99. Texts that become blank are left out. Images are in C100.

Theorems: `ReviewDetails.details_said`, `ReviewDetails.paragraphs_exist`, `ReviewDetails.review_written`

### C187 Details of a review come back from ILCD in each language

The details of a review of EcoSpold2 that are written in ILCD and converted back state, in each language, one text with the paragraphs of this language in order, without the lines on date and version, besides the type of the review, and nothing else.

Approach: `Back` in the specification lists what should be there; the text left of each language is found with the lemmas on the patterns of version and date.

Status: **partial**. True exactly for reviews with details in English (`back_wanted_iff`). Without details in English the line on the version comes back as a detail (constructor `version` of `Back`; the version itself is lost then, C89). For dates of digits, blanks and hyphens, and details without the marks of date and version. Texts with different indices come back as one text, and so under one index.

Theorems: `ReviewDetails.details_back`, `ReviewDetails.back_wanted_iff`

### C188 The other details of a review are kept in each language

The other details of a review of EcoSpold2 are said in ILCD, each in its language.

Approach: The value read of the elements is a list as soon as there are two; `text_add_index` has no case for lists.

Status: **partial**. False for two or more languages, which the schema allows: the conversion stops with an AttributeError (`other_stops`). True for at most one (`other_said_partial`).

Theorems: `ReviewDetails.other_stops`, `ReviewDetails.other_said_partial`

### C189 Data of an ILCD process without a place in EcoSpold2 do not stop the conversion and are recorded

Data of an ILCD process that EcoSpold2 has no field for (complementing processes, functional unit, sublocations, the LCI method, references to methods and data sources, completeness, compliance, time stamp, registration and so on) never stop the conversion, and the record of data that were not converted holds all of them, in the order of the document.

Approach: The assignments are run on all that the stream delivers for a document (C22), and the values delivered are led back to the form of the elements (C23).

Status: **partial**. The exact condition is proved (`goes_on_partial`). False for the registration number, which the format writes as a mere text: it always stops the conversion (`registration_number_stops`). What is given as a list is all kept, but behind the data of the files before (`earlier_file_stays`); of a text the last one. Coordinates, commissioner and access restrictions never reach the record (`never_kept`).

Theorems: `LeftOut.goes_on_partial`, `LeftOut.registration_number_stops`, `LeftOut.lists_kept`, `LeftOut.texts_kept`, `LeftOut.number_kept`, `LeftOut.never_kept`, `LeftOut.earlier_file_stays`, `LeftOut.list_given`

### C190 Changing the list of elementary flows carries over the other data sets of the archive

When an ILCD archive is converted to ILCD (only the list of elementary flows changes), the conversion succeeds for every archive, with or without sources and contacts, and the archive written has every source, contact and document of the archive read with the same content, beside the files of the package.

Approach: The archive written is followed as folders with the files in them, from the files of the package over the copies for each data set to the files saved for exchanges; that the latter are flows, flow properties and unit groups is proved of the conversion of exchanges (C94 to C96).

Status: **partial**. True of sources and contacts, which are kept exactly, a file of the archive coming before one of the package with the same name (`sources_carried`, `converted_archive`). False of archives without one of the two folders or with a folder in them, which are refused (`converts_iff`, `no_sources_stops`), and of documents, of which none is kept (`documents_lost`). Flows, flow properties and unit groups are there if and only if saved for an exchange (`flows_saved_only`).

Theorems: `Carried.converts_iff`, `Carried.sources_carried`, `Carried.documents_lost`, `Carried.flows_saved_only`, `Carried.same_for_more`, `Carried.no_sources_stops`, `Carried.saved_folders`, `Carried.all_saved_folders`, `Carried.converted_archive`

### C191 The parameters written with a data set are those of the data set

When ILCD data sets are converted to ILCD one after the other in one program, by the same or by new converters, each is written with the parameters of its own document only, and is converted as it would be in a program of its own.

Approach: The list of parameters is a state that lives as long as the program. A data set takes it to the state after it, with or without an error; calls and sessions are lists of data sets. That exchanges without variables neither read nor change the list is proved of the whole conversion of exchanges.

Status: **partial**. True as long as every earlier call has succeeded (alone_partial), and for every data set with an element for mathematical relations (own_parameters). False after an error behind this element (failure_leaves, refused_leaves): the next data set without the element is written with the parameters of the one that failed (left_written, witness stranger_written), and is converted as alone exactly if none are left (alone_iff). A parameter that the structure refuses stops all later calls whose data sets have no such element (refused_forever).

Theorems: `ListSession.own_parameters`, `ListSession.written_empties`, `ListSession.alone_partial`, `ListSession.failure_leaves`, `ListSession.refused_leaves`, `ListSession.left_written`, `ListSession.alone_iff`, `ListSession.refused_forever`, `ListSession.stranger_written`, `ListSession.written_iff`, `ListSession.exchange_leaves`

### C192 The error reported for an ILCD data set is the one that occurred

If the conversion of an ILCD data set to ILCD fails, the error raised by the call is the error that occurred.

Approach: On an error the converter calls a method `delete` of the mapping, which this mapping does not have. Proved both for the series of data sets of C191 and for the course of any conversion (C29) with a mapping whose deletion fails.

Status: **partial**. False of the code: once there is a mapping, every error is reported as the AttributeError of the missing method (error_hidden), so the error is the one that occurred exactly if it occurred before or was an AttributeError (reported_iff). Errors of the start are reported (start_reported).

Theorems: `ListSession.error_hidden`, `ListSession.start_reported`, `ListSession.reported_iff`, `Driver.no_delete_hides`

### C193 Every field of the output format can be filled

For each field of the groups that a conversion works on there is a source file whose conversion fills it. In particular the classification of an ILCD process reaches the EcoSpold2 data set.

Approach: A field is there after a list of operations on a data set only if one of them assigns it, a group around it or something within it; this is proved for every list of operations (`exec_present`). That no entry of the mapping does so for the listed fields, and that for every other field of the schemas a file with one element fills it, is decided on the whole tables of the model (`Model/Assign.lean`).

Status: **partial**. False of the code: the listed fields (`ecs2Never`, `ilcdNever`) are never filled, and they are exactly those (`ecs2_never_filled_iff`, `ilcd_never_filled_iff`). The classification of a process is among them, since its conversion has been switched off (`classification_lost`), as are the coordinates, the compliance and the data sources of an ILCD process (`ilcd_lost`). Fields inside exchanges and other repeated elements are values of the model and are not considered.

Theorems: `Assign.ecs2_never_filled_iff`, `Assign.ilcd_never_filled_iff`, `Assign.classification_lost`, `Assign.ilcd_lost`

### C194 Default files arrive in the archive byte for byte

copy_file(save, defaults, folder, id) into an existing archive folder, other than the folder of the default files, ends without an error and makes save/folder/id.xml equal to defaults/id.xml in every byte, whatever the size of the file and whatever was at its place before; no other file changes, and copying again changes nothing. If the package has no such file, the call raises an OSError and no file changes.

Approach: the loop of `copyfileobj` is defined by recursion on what is left to read; the file system is a function from paths to contents.

Status: **proved**. Besides the property: if the archive is made in the folder of the default files itself, the default file is emptied, because the target is opened before the source is read (`copied_onto_itself`).

Theorems: `CopyFile.bytes_kept`, `CopyFile.copied`, `CopyFile.missing_default`, `CopyFile.copied_again`, `CopyFile.copied_onto_itself`

### C195 A download of the flows is complete or leaves nothing

After any number of calls of download(), the folder of the elementary flows is either complete, with every file of the repository, or not there, and the files of the package can then be found by copy_file.

Approach: one call is a function of the file system and of how the transfer ends; the statement about all calls is an induction over the list of calls.

Status: **partial**. Proved if no call ends with the process (`all_or_nothing_partial`). False otherwise: a process that ends during the transfer leaves a folder with some of the files, and since a folder that is there is taken for complete, no later call adds the others (`killed_stays`). The second part is false: the whole folder of default files is fetched into the folder of the flows, so that each flow arrives one folder lower than copy_file looks for it (`fetched_not_found`). The call is commented out in `__init__.py`, so it only matters to a user who calls it.

Theorems: `CopyFile.all_or_nothing_partial`, `CopyFile.complete_all`, `CopyFile.failure_undone`, `CopyFile.present_kept`, `CopyFile.killed_stays`, `CopyFile.fetched_not_found`

### C196 Every date of a time period is read

The start and the end of the time period of an EcoSpold2 data set are read for every date that the schema allows, and the years written are those of the dates. True of dates without a zone in the years from 1000 to 9999, and of dates with a time of UTC and at most six decimals of a second. False of the code for a date with a zone (2010-01-01Z, 2010-01-01+01:00), for a time with another zone or none, and for more decimals: the conversion stops with a ValueError.

Approach: `Dates`: the three formats of `strptime`, with the fields of the regular expressions of the Python library. The texts of the schema are split at their separators, which are no digits; conversely the characters of every text that is read are listed.

Status: **partial**. True of bare dates (date_read, period_written) and of times of UTC with up to six decimals (time_read_iff, exact). False for dates and times with another zone (zone_stops, time_zone_stops). Whatever is read is a date of the calendar (read_is_date).

Theorems: `Dates.date_read`, `Dates.read_is_date`, `Dates.read_form`, `Dates.zone_stops`, `Dates.time_read_iff`, `Dates.time_zone_stops`, `Dates.period_written`, `Dates.time_of_day_iff`, `Dates.letters_either_case`, `Dates.short_date_read`
