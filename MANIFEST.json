{
 "claims": [
  {
   "property": "C01",
   "status": "proved",
   "theorems": [
    "Chrono.Props.c01_getter_is_last_set_else_last_implied",
    "Chrono.Props.c01_imply_never_overrides",
    "Chrono.Props.c01_components_independent"
   ],
   "note": ""
  },
  {
   "property": "C02",
   "status": "proved",
   "theorems": [
    "Chrono.Props.c02_isCertain_iff_was_set"
   ],
   "note": ""
  },
  {
   "property": "C03",
   "status": "partial",
   "theorems": [
    "Chrono.Props.c03_isCertain_min_always_false_partial",
    "Chrono.Props.c03_isCertain_min_refuted"
   ],
   "note": "The property is false of the code (isCertain reads key \"minute\"); proved: the answer is always false, plus a witness history refuting the property."
  },
  {
   "property": "C04",
   "status": "proved",
   "theorems": [
    "Chrono.Props.c04_unknown_name_inert"
   ],
   "note": ""
  },
  {
   "property": "C05",
   "status": "proved",
   "theorems": [
    "Chrono.Props.c05_copy_preserves_observation"
   ],
   "note": ""
  },
  {
   "property": "C06",
   "status": "proved",
   "theorems": [
    "Chrono.Props.c06_tag_true_iff_first_mention_is_set"
   ],
   "note": ""
  },
  {
   "property": "C07",
   "status": "partial",
   "theorems": [
    "Chrono.Props.c07_setTag_effective_partial",
    "Chrono.Props.c07_setTag_refuted"
   ],
   "note": "False of the code in general; proved for histories that do not read the tag before setting it, and the failure otherwise."
  },
  {
   "property": "C08",
   "status": "proved",
   "theorems": [
    "Chrono.Props.c08_toDate_prints_start",
    "Chrono.Props.c08_format_injective",
    "Chrono.Props.c08_toDate_prints_range"
   ],
   "note": ""
  },
  {
   "property": "C09",
   "status": "proved",
   "theorems": [
    "Chrono.Props.c09_toDate_throws_iff_not_a_date",
    "Chrono.Props.c09_range_end_not_a_date"
   ],
   "note": ""
  },
  {
   "property": "C10",
   "status": "partial",
   "theorems": [
    "Chrono.Props.c10_tz_shifts_start_only_partial",
    "Chrono.Props.c10_both_ends_shifted_refuted"
   ],
   "note": "False of the code (the end is never shifted); proved: exactly what is printed, plus a refuting witness."
  },
  {
   "property": "C11",
   "status": "proved",
   "theorems": [
    "Chrono.Props.c11_hasPossibleDates_false_iff"
   ],
   "note": ""
  },
  {
   "property": "C12",
   "status": "partial",
   "theorems": [
    "Chrono.Props.c12_isPossibleDate_exact_partial",
    "Chrono.Props.c12_isPossibleDate_never_accepts"
   ],
   "note": "False of the code; proved: the exact condition for the outcome, and that no valid date with its real weekday is accepted."
  },
  {
   "property": "C13",
   "status": "proved",
   "theorems": [
    "Chrono.Props.c13_add_days_is_calendar",
    "Chrono.Props.c13_dates_are_civil_dates",
    "Chrono.Props.c13_day_of_week",
    "Chrono.Props.c13_epoch_thursday"
   ],
   "note": ""
  },
  {
   "property": "C14",
   "status": "proved",
   "theorems": [
    "Chrono.Props.c14_every_parser_terminates"
   ],
   "note": ""
  },
  {
   "property": "C15",
   "status": "proved",
   "theorems": [
    "Chrono.Props.c15_spans_inside_ordered_disjoint"
   ],
   "note": ""
  },
  {
   "property": "C16",
   "status": "proved",
   "theorems": [
    "Chrono.Props.c16_case_insensitive",
    "Chrono.Props.c16_text_is_lowered"
   ],
   "note": ""
  },
  {
   "property": "C17",
   "status": "partial",
   "theorems": [
    "Chrono.Props.c17_weekday_parser_recognises_nothing_partial",
    "Chrono.Props.c17_weekday_phrases_refuted"
   ],
   "note": "False of the code (the pattern does not compile); proved: nothing is ever recognised, on every text."
  },
  {
   "property": "C18",
   "status": "partial",
   "theorems": [
    "Chrono.Props.c18_ago_and_later_need_a_backslash_partial",
    "Chrono.Props.c18_ago_and_later_refuted"
   ],
   "note": "False of the code (the patterns ask for a backslash); proved: nothing is recognised in any text without a backslash, plus the README phrases as witnesses."
  },
  {
   "property": "C19",
   "status": "partial",
   "theorems": [
    "Chrono.Props.c19_no_christmas_without_backslash_partial",
    "Chrono.Props.c19_christmas_refuted"
   ],
   "note": "False of the code (the pattern asks for a backslash); proved: no result of any text without a backslash is Christmas, plus witnesses."
  },
  {
   "property": "C20",
   "status": "partial",
   "theorems": [
    "Chrono.Props.c20_eleven_parsers_ignore_history",
    "Chrono.Props.c20_history_matters_only_through_added_words_partial",
    "Chrono.Props.c20_history_independence_refuted"
   ],
   "note": "False of the code (the relative parser adds to a global table); proved: eleven parsers ignore all history, the others see it only through added words that occur in the text, and a refuting history."
  },
  {
   "property": "C21",
   "status": "proved",
   "theorems": [
    "Chrono.Props.c21_today_tonight_now",
    "Chrono.Props.c21_tomorrow",
    "Chrono.Props.c21_yesterday_last_night"
   ],
   "note": ""
  },
  {
   "property": "C22",
   "status": "proved",
   "theorems": [
    "Chrono.Props.c22_parts_of_the_day"
   ],
   "note": ""
  },
  {
   "property": "C23",
   "status": "proved",
   "theorems": [
    "Chrono.Props.c23_days_and_weeks",
    "Chrono.Props.c23_months_and_years"
   ],
   "note": ""
  },
  {
   "property": "C24",
   "status": "partial",
   "theorems": [
    "Chrono.Props.c24_time_of_day_partial",
    "Chrono.Props.c24_same_day_partial",
    "Chrono.Props.c24_midnight_refuted",
    "Chrono.Props.c24_rounding_refuted"
   ],
   "note": "False of the code when midnight is crossed and for N of 2^24 or more (witnesses proved); proved: time of day always right below 2^24, whole instant right when midnight is not crossed."
  },
  {
   "property": "C25",
   "status": "partial",
   "theorems": [
    "Chrono.Props.c25_abbreviations_ignored_partial",
    "Chrono.Props.c25_refuted"
   ],
   "note": "False of the code; proved: for every N the result is the reference time itself, plus a witness."
  },
  {
   "property": "C26",
   "status": "proved",
   "theorems": [
    "Chrono.Props.c26_half_week_month_year",
    "Chrono.Props.c26_half_hour_minute_second",
    "Chrono.Props.c26_half_day"
   ],
   "note": ""
  },
  {
   "property": "C27",
   "status": "proved",
   "theorems": [
    "Chrono.Props.c27_iso_date",
    "Chrono.Props.c27_iso_minutes",
    "Chrono.Props.c27_iso_seconds",
    "Chrono.Props.c27_iso_never_throws"
   ],
   "note": ""
  },
  {
   "property": "C28",
   "status": "partial",
   "theorems": [
    "Chrono.Props.c28_zone_minutes_partial",
    "Chrono.Props.c28_minus_zero_hours_refuted"
   ],
   "note": "False of the code in the case named in the statement (refuted); proved for every other offset."
  },
  {
   "property": "C29",
   "status": "partial",
   "theorems": [
    "Chrono.Props.c29_iso_fields_in_range_partial",
    "Chrono.Props.c29_printable_iff_calendar_date_partial",
    "Chrono.Props.c29_unprintable_refuted"
   ],
   "note": "False of the code (impossible dates are accepted); proved: printable exactly when the written date exists, plus refuting witnesses."
  },
  {
   "property": "C30",
   "status": "partial",
   "theorems": [
    "Chrono.Props.c30_month_without_year",
    "Chrono.Props.c30_month_day_partial",
    "Chrono.Props.c30_month_phrase",
    "Chrono.Props.c30_month_day_phrase_partial",
    "Chrono.Props.c30_february_28_refuted",
    "Chrono.Props.c30_february_29_refuted",
    "Chrono.Props.c30_jun_refuted"
   ],
   "note": "False of the code in the cases listed in the statement (witnesses proved); proved otherwise, on every text and for every spelling."
  },
  {
   "property": "C31",
   "status": "partial",
   "theorems": [
    "Chrono.Props.c31_month_with_year",
    "Chrono.Props.c31_month_day",
    "Chrono.Props.c31_month_year_partial",
    "Chrono.Props.c31_full_date_partial",
    "Chrono.Props.c31_one_bc_refuted",
    "Chrono.Props.c31_blank_before_bc_refuted",
    "Chrono.Props.c31_date_at_end_refuted"
   ],
   "note": "False of the code in the cases listed in the statement (witnesses proved); proved otherwise."
  },
  {
   "property": "C32",
   "status": "proved",
   "theorems": [
    "Chrono.Props.c32_ordinal",
    "Chrono.Props.c32_other"
   ],
   "note": ""
  },
  {
   "property": "C33",
   "status": "partial",
   "theorems": [
    "Chrono.Props.c33_single_times_partial",
    "Chrono.Props.c33_clock_time",
    "Chrono.Props.c33_seconds_only_refuted"
   ],
   "note": "False of the code for HH:MM:SS with a minute from 60 on (refuted); proved otherwise on every text without range separators and for every written clock time."
  },
  {
   "property": "C34",
   "status": "partial",
   "theorems": [
    "Chrono.Props.c34_range_hours_partial",
    "Chrono.Props.c34_range_rule_partial",
    "Chrono.Props.c34_both_given_partial",
    "Chrono.Props.c34_start_past_midnight_refuted"
   ],
   "note": "False of the code (hours up to 36); proved: the exact bounds on every text, plus witnesses."
  },
  {
   "property": "C35",
   "status": "partial",
   "theorems": [
    "Chrono.Props.c35_only_bad_reads_partial",
    "Chrono.Props.c35_uninitialised_read_refuted",
    "Chrono.Props.c35_dangling_read_refuted"
   ],
   "note": "False of the code (an uninitialised and a dangling read); proved: exactly which ranges read them, on every text."
  },
  {
   "property": "C36",
   "status": "proved",
   "theorems": [
    "Chrono.Props.c36_us_holidays",
    "Chrono.Props.c36_every_result_is_a_holiday"
   ],
   "note": ""
  },
  {
   "property": "C37",
   "status": "partial",
   "theorems": [
    "Chrono.Props.c37_black_friday_is_saturday_partial",
    "Chrono.Props.c37_black_friday_refuted"
   ],
   "note": "False of the code (two days after); proved: exactly which day it gives, for every year."
  },
  {
   "property": "C38",
   "status": "proved",
   "theorems": [
    "Chrono.Props.c38_next_weeks",
    "Chrono.Props.c38_last_weeks",
    "Chrono.Props.c38_bare",
    "Chrono.Props.c38_too_many_weeks_throw"
   ],
   "note": ""
  },
  {
   "property": "C39",
   "status": "proved",
   "theorems": [
    "Chrono.Props.c39_this_week",
    "Chrono.Props.c39_this_month",
    "Chrono.Props.c39_this_year"
   ],
   "note": ""
  },
  {
   "property": "C40",
   "status": "proved",
   "theorems": [
    "Chrono.Props.c40_days_and_weeks",
    "Chrono.Props.c40_months_and_years",
    "Chrono.Props.c40_times",
    "Chrono.Props.c40_half_week_month",
    "Chrono.Props.c40_half_year",
    "Chrono.Props.c40_half_hour_minute",
    "Chrono.Props.c40_half_day"
   ],
   "note": ""
  },
  {
   "property": "C41",
   "status": "proved",
   "theorems": [
    "Chrono.Props.c41_weekday"
   ],
   "note": ""
  },
  {
   "property": "C42",
   "status": "proved",
   "theorems": [
    "Chrono.Props.c42_sublist_and_disjoint"
   ],
   "note": ""
  },
  {
   "property": "C43",
   "status": "proved",
   "theorems": [
    "Chrono.Props.c43_longest_survives",
    "Chrono.Props.c43_first_longest_survives",
    "Chrono.Props.c43_locally_longest_survives"
   ],
   "note": ""
  },
  {
   "property": "C44",
   "status": "proved",
   "theorems": [
    "Chrono.Props.c44_idempotent"
   ],
   "note": ""
  },
  {
   "property": "C45",
   "status": "partial",
   "theorems": [
    "Chrono.Props.c45_discarded_linked_to_kept_partial",
    "Chrono.Props.c45_direct_overlap_refuted"
   ],
   "note": "False of the code; proved: witness, and the chain-of-overlaps version."
  },
  {
   "property": "C46",
   "status": "proved",
   "theorems": [
    "Chrono.Props.c46_sort_order_irrelevant"
   ],
   "note": ""
  },
  {
   "property": "C47",
   "status": "proved",
   "theorems": [
    "Chrono.Props.c47_only_tagged_times_before_known_zone"
   ],
   "note": ""
  },
  {
   "property": "C48",
   "status": "proved",
   "theorems": [
    "Chrono.Props.c48_merge_takes_date_and_time"
   ],
   "note": ""
  },
  {
   "property": "C49",
   "status": "partial",
   "theorems": [
    "Chrono.Props.c49_any_pair_is_merged_partial",
    "Chrono.Props.c49_only_connectors_refuted"
   ],
   "note": "False of the code (the connector pattern matches everywhere); proved: every such pair is merged, plus a witness."
  },
  {
   "property": "C50",
   "status": "proved",
   "theorems": [
    "Chrono.Props.c50_output_is_merge_pass",
    "Chrono.Props.c50_unmerged_results_survive",
    "Chrono.Props.c50_identity_without_pairs",
    "Chrono.Props.c50_last_pair_duplicated_refuted"
   ],
   "note": "Both clauses and the known defect (the second element of the last pair is kept) are proved."
  },
  {
   "property": "C51",
   "status": "proved",
   "theorems": [
    "Chrono.Props.c51_range_never_ends_before_it_starts"
   ],
   "note": ""
  },
  {
   "property": "C52",
   "status": "partial",
   "theorems": [
    "Chrono.Props.c52_last_replaced_by_previous_partial",
    "Chrono.Props.c52_identity_refuted",
    "Chrono.Props.c52_first_result_survives"
   ],
   "note": "False of the code; proved: exactly what is returned instead, the witness, and survival of the first result."
  },
  {
   "property": "C53",
   "status": "proved",
   "theorems": [
    "Chrono.Props.c53_invalid_iff_nothing_found"
   ],
   "note": ""
  },
  {
   "property": "C54",
   "status": "proved",
   "theorems": [
    "Chrono.Props.c54_refiners_stay_inside_text",
    "Chrono.Props.c54_each_refiner"
   ],
   "note": ""
  },
  {
   "property": "C55",
   "status": "proved",
   "theorems": [
    "Chrono.Props.c55_iso_date_printed_back"
   ],
   "note": ""
  },
  {
   "property": "C56",
   "status": "partial",
   "theorems": [
    "Chrono.Props.c56_casual_dates_partial",
    "Chrono.Props.c56_holidays",
    "Chrono.Props.c56_not_found_refuted",
    "Chrono.Props.c56_ago_and_later_refuted",
    "Chrono.Props.c56_from_now_refuted"
   ],
   "note": "False for part of the README phrases; proved what each of them prints for every reference time."
  },
  {
   "property": "C57",
   "status": "partial",
   "theorems": [
    "Chrono.Props.c57_may_refuted",
    "Chrono.Props.c57_many_weeks_refuted",
    "Chrono.Props.c57_iso_non_dates_refuted",
    "Chrono.Props.c57_more_texts_refuted",
    "Chrono.Props.c57_ordinary_texts_live_partial",
    "Chrono.Props.c57_conditions_are_needed"
   ],
   "note": "False of the code; proved: families of texts on which the program dies, for every reference time, and that every ordinary text (Spec/Ordinary.lean) is answered; each condition there is needed (witnesses)."
  },
  {
   "property": "C58",
   "status": "proved",
   "theorems": [
    "Chrono.Props.c58_sort_ties_do_not_matter",
    "Chrono.Props.c58_noon_depends_on_sort"
   ],
   "note": ""
  },
  {
   "property": "C59",
   "status": "partial",
   "theorems": [
    "Chrono.Props.c59_no_foreign_tag_partial",
    "Chrono.Props.c59_own_tag_partial",
    "Chrono.Props.c59_deadline_untagged_refuted"
   ],
   "note": "First half false of the code (untagged date deadlines, week parser); proved: no foreign tag ever, own tag always for six parsers."
  },
  {
   "property": "C60",
   "status": "proved",
   "theorems": [
    "Chrono.Props.c60_whole_text_mention_wins"
   ],
   "note": ""
  },
  {
   "property": "C61",
   "status": "proved",
   "theorems": [
    "Chrono.Props.c61_parts_of_the_day",
    "Chrono.Props.c61_clock_times"
   ],
   "note": ""
  },
  {
   "property": "C62",
   "status": "proved",
   "theorems": [
    "Chrono.Props.c62_days_and_weeks_printed",
    "Chrono.Props.c62_months_and_years_printed",
    "Chrono.Props.c62_times_printed"
   ],
   "note": ""
  },
  {
   "property": "C63",
   "status": "proved",
   "theorems": [
    "Chrono.Props.c63_next_weeks_printed",
    "Chrono.Props.c63_last_weeks_printed",
    "Chrono.Props.c63_bare_weeks_printed"
   ],
   "note": ""
  },
  {
   "property": "C64",
   "status": "proved",
   "theorems": [
    "Chrono.Props.c64_month_printed",
    "Chrono.Props.c64_month_year_printed"
   ],
   "note": ""
  },
  {
   "property": "C65",
   "status": "proved",
   "theorems": [
    "Chrono.Props.c65_days_and_weeks",
    "Chrono.Props.c65_months_and_years",
    "Chrono.Props.c65_times"
   ],
   "note": ""
  },
  {
   "property": "C66",
   "status": "partial",
   "theorems": [
    "Chrono.Props.c66_day_range_phrase_partial",
    "Chrono.Props.c66_day_range_printed_partial",
    "Chrono.Props.c66_end_before_start_refuted",
    "Chrono.Props.c66_missing_day_refuted",
    "Chrono.Props.c66_every_range"
   ],
   "note": "False of the code in the cases named in the statement (refuted); proved otherwise, for every month, days and reference time."
  },
  {
   "property": "C67",
   "status": "partial",
   "theorems": [
    "Chrono.Props.c67_weekday_is_written",
    "Chrono.Props.c67_weekday_phrase_partial"
   ],
   "note": "Proved on every text; for phrases except 28 and 29 February, where the nearest year is wrong (C30)."
  },
  {
   "property": "C68",
   "status": "partial",
   "theorems": [
    "Chrono.Props.c68_end_of_merged_time",
    "Chrono.Props.c68_end_of_merged_date",
    "Chrono.Props.c68_last_day_of_month_refuted"
   ],
   "note": "False of the code in the cases named in the statement (refuted); proved otherwise."
  },
  {
   "property": "C69",
   "status": "proved",
   "theorems": [
    "Chrono.Props.c69_joined_dates_become_a_range"
   ],
   "note": ""
  },
  {
   "property": "C70",
   "status": "partial",
   "theorems": [
    "Chrono.Props.c70_without_colon",
    "Chrono.Props.c70_after_midnight_refuted",
    "Chrono.Props.c70_at_from",
    "Chrono.Props.c70_noon_midnight",
    "Chrono.Props.c70_without_colon_printed",
    "Chrono.Props.c70_at_from_printed",
    "Chrono.Props.c70_midnight_printed"
   ],
   "note": "False of the code in the cases named in the statement (refuted); proved otherwise for every time and reference."
  },
  {
   "property": "C71",
   "status": "partial",
   "theorems": [
    "Chrono.Props.c71_new_years_eve",
    "Chrono.Props.c71_new_years_eve_refuted"
   ],
   "note": "False of the code (refuted for every year); proved what is printed instead."
  },
  {
   "property": "C72",
   "status": "proved",
   "theorems": [
    "Chrono.Props.c72_reference_argument",
    "Chrono.Props.c72_now_prints_argument"
   ],
   "note": ""
  },
  {
   "property": "C73",
   "status": "proved",
   "theorems": [
    "Chrono.Props.c73_printed_form_is_argument",
    "Chrono.Props.c73_now_prints_argument"
   ],
   "note": ""
  },
  {
   "property": "C74",
   "status": "partial",
   "theorems": [
    "Chrono.Props.c74_impossible_date",
    "Chrono.Props.c74_no_number",
    "Chrono.Props.c74_impossible_time_refuted"
   ],
   "note": "False of the code in the cases named in the statement (refuted); proved otherwise."
  },
  {
   "property": "C75",
   "status": "proved",
   "theorems": [
    "Chrono.Props.c75_usage",
    "Chrono.Props.c75_clock"
   ],
   "note": ""
  },
  {
   "property": "C76",
   "status": "proved",
   "theorems": [
    "Chrono.Props.c76_iso_range_printed",
    "Chrono.Props.c76_iso_pair_first_printed"
   ],
   "note": ""
  },
  {
   "property": "C77",
   "status": "partial",
   "theorems": [
    "Chrono.Props.c77_iso_date_with_clock_partial",
    "Chrono.Props.c77_tomorrow_with_clock_refuted",
    "Chrono.Props.c77_today_with_clock_partial",
    "Chrono.Props.c77_holiday_with_clock_refuted"
   ],
   "note": "Proved for ISO dates and today with every clock time of C33; refuted for tomorrow, yesterday, tmr and for holidays (the time is lost, for every holiday, time and reference)."
  },
  {
   "property": "C78",
   "status": "partial",
   "theorems": [
    "Chrono.Props.c78_presentable_mentions_are_printed",
    "Chrono.Props.c78_program_prints_presentable_mentions",
    "Chrono.Props.c78_words_never_kill_the_program_partial",
    "Chrono.Props.c78_words_refuted",
    "Chrono.Props.c78_leap_day_refuted"
   ],
   "note": "Proved for every text without digits outside four listed situations; in each of these it is false and refuted with a witness."
  },
  {
   "property": "C79",
   "status": "proved",
   "theorems": [
    "Chrono.Props.c79_usual_meaning",
    "Chrono.Props.c79_half_hours_west_an_hour_off",
    "Chrono.Props.c79_in_a_text"
   ],
   "note": ""
  },
  {
   "property": "C80",
   "status": "partial",
   "theorems": [
    "Chrono.Props.c80_offset_is_added_partial",
    "Chrono.Props.c80_utc_refuted"
   ],
   "note": "False of the code except in zones of offset 0 (refuted for every time, zone and reference); proved what is printed instead."
  },
  {
   "property": "C81",
   "status": "proved",
   "theorems": [
    "Chrono.Props.c81_no_date_words_no_date",
    "Chrono.Props.c81_conditions_are_needed"
   ],
   "note": ""
  },
  {
   "property": "C82",
   "status": "proved",
   "theorems": [
    "Chrono.Props.c82_words_around_do_not_matter",
    "Chrono.Props.c82_conditions_are_met",
    "Chrono.Props.c82_conditions_are_needed"
   ],
   "note": ""
  },
  {
   "property": "C83",
   "status": "proved",
   "theorems": [
    "Chrono.Props.c83_iso_date_in_any_text",
    "Chrono.Props.c83_conditions_are_met",
    "Chrono.Props.c83_conditions_are_needed"
   ],
   "note": ""
  },
  {
   "property": "C84",
   "status": "proved",
   "theorems": [
    "Chrono.Props.c84_deadline_in_a_sentence",
    "Chrono.Props.c84_week_in_a_sentence",
    "Chrono.Props.c84_holiday_in_a_sentence",
    "Chrono.Props.c84_deadline_conditions_are_met",
    "Chrono.Props.c84_week_conditions_are_met",
    "Chrono.Props.c84_holiday_conditions_are_met",
    "Chrono.Props.c84_conditions_are_needed"
   ],
   "note": ""
  },
  {
   "property": "C85",
   "status": "proved",
   "theorems": [
    "Chrono.Props.c85_clock_time_in_any_text",
    "Chrono.Props.c85_military_time_in_any_text",
    "Chrono.Props.c85_conditions_are_met",
    "Chrono.Props.c85_conditions_are_needed"
   ],
   "note": ""
  },
  {
   "property": "C86",
   "status": "proved",
   "theorems": [
    "Chrono.Props.c86_numbers_that_are_no_times",
    "Chrono.Props.c86_conditions_are_met",
    "Chrono.Props.c86_conditions_are_needed"
   ],
   "note": ""
  },
  {
   "property": "C87",
   "status": "proved",
   "theorems": [
    "Chrono.Props.c87_month_in_any_text",
    "Chrono.Props.c87_one_blank_hides_a_month",
    "Chrono.Props.c87_may_with_a_full_stop_kills",
    "Chrono.Props.c87_conditions_are_met",
    "Chrono.Props.c87_failing_conditions_are_met",
    "Chrono.Props.c87_conditions_are_needed"
   ],
   "note": ""
  },
  {
   "property": "C88",
   "status": "proved",
   "theorems": [
    "Chrono.Props.c88_month_and_day_in_any_text",
    "Chrono.Props.c88_conditions_are_met",
    "Chrono.Props.c88_conditions_are_needed"
   ],
   "note": ""
  },
  {
   "property": "C89",
   "status": "proved",
   "theorems": [
    "Chrono.Props.c89_month_and_year_in_any_text",
    "Chrono.Props.c89_early_years_kill",
    "Chrono.Props.c89_conditions_are_met",
    "Chrono.Props.c89_conditions_are_needed"
   ],
   "note": ""
  },
  {
   "property": "C90",
   "status": "proved",
   "theorems": [
    "Chrono.Props.c90_day_with_no_word_after_it_is_lost",
    "Chrono.Props.c90_bare_day_with_no_word_after_it_is_read_as_an_hour",
    "Chrono.Props.c90_conditions_are_met",
    "Chrono.Props.c90_conditions_are_needed"
   ],
   "note": ""
  },
  {
   "property": "C91",
   "status": "proved",
   "theorems": [
    "Chrono.Props.c91_time_then_day_in_any_text",
    "Chrono.Props.c91_day_then_time_in_any_text",
    "Chrono.Props.c91_conditions_are_met_time_first",
    "Chrono.Props.c91_conditions_are_met_day_first",
    "Chrono.Props.c91_conditions_are_needed"
   ],
   "note": ""
  },
  {
   "property": "C92",
   "status": "proved",
   "theorems": [
    "Chrono.Props.c92_time_then_part_in_any_text",
    "Chrono.Props.c92_part_then_time_in_any_text",
    "Chrono.Props.c92_conditions_are_met_time_first",
    "Chrono.Props.c92_conditions_are_met_part_first",
    "Chrono.Props.c92_conditions_are_needed"
   ],
   "note": ""
  },
  {
   "property": "C93",
   "status": "proved",
   "theorems": [
    "Chrono.Props.c93_part_then_day_in_any_text",
    "Chrono.Props.c93_day_then_part_in_any_text",
    "Chrono.Props.c93_conditions_are_met_part_first",
    "Chrono.Props.c93_conditions_are_met_day_first",
    "Chrono.Props.c93_conditions_are_needed"
   ],
   "note": ""
  },
  {
   "property": "C94",
   "status": "proved",
   "theorems": [
    "Chrono.Props.c94_joined_days_are_a_range",
    "Chrono.Props.c94_first_of_two_days_is_printed",
    "Chrono.Props.c94_conditions_are_met_joined",
    "Chrono.Props.c94_conditions_are_met_separate",
    "Chrono.Props.c94_conditions_are_needed"
   ],
   "note": ""
  },
  {
   "property": "C95",
   "status": "proved",
   "theorems": [
    "Chrono.Props.c95_first_mention_is_printed",
    "Chrono.Props.c95_first_of_dates_is_printed",
    "Chrono.Props.c95_first_of_unrelated_mentions",
    "Chrono.Props.c95_conditions_are_met",
    "Chrono.Props.c95_example"
   ],
   "note": ""
  },
  {
   "property": "C96",
   "status": "proved",
   "theorems": [
    "Chrono.Props.c96_first_two_joined_are_printed",
    "Chrono.Props.c96_first_two_of_dates_are_printed",
    "Chrono.Props.c96_conditions_are_met",
    "Chrono.Props.c96_example"
   ],
   "note": ""
  },
  {
   "property": "C97",
   "status": "proved",
   "theorems": [
    "Chrono.Props.c97_first_date_and_time_are_printed",
    "Chrono.Props.c97_conditions_are_met",
    "Chrono.Props.c97_example"
   ],
   "note": ""
  },
  {
   "property": "C98",
   "status": "proved",
   "theorems": [
    "Chrono.Props.c98_first_two_days_are_a_range",
    "Chrono.Props.c98_first_of_the_days_is_printed",
    "Chrono.Props.c98_first_day_is_printed",
    "Chrono.Props.c98_conditions_are_met_joined",
    "Chrono.Props.c98_conditions_are_met_separate",
    "Chrono.Props.c98_conditions_are_met_first",
    "Chrono.Props.c98_conditions_are_needed"
   ],
   "note": ""
  },
  {
   "property": "C99",
   "status": "partial",
   "theorems": [
    "Chrono.Props.c99_first_two_months_are_a_range_partial",
    "Chrono.Props.c99_first_of_the_months_is_printed",
    "Chrono.Props.c99_first_month_is_printed",
    "Chrono.Props.c99_a_range_word_right_before_the_month_is_lost",
    "Chrono.Props.c99_conditions_are_met_joined",
    "Chrono.Props.c99_conditions_are_met_separate",
    "Chrono.Props.c99_march_to_june_refuted",
    "Chrono.Props.c99_conditions_are_needed"
   ],
   "note": "False of the code when only blanks stand between the range word and the second month (refuted by a witness and for every such text); proved for every other place of the range word, and for texts without one."
  },
  {
   "property": "C100",
   "status": "proved",
   "theorems": [
    "Chrono.Props.c100_first_day_is_printed",
    "Chrono.Props.c100_first_month_is_printed",
    "Chrono.Props.c100_conditions_are_met_day",
    "Chrono.Props.c100_conditions_are_met_month",
    "Chrono.Props.c100_conditions_are_needed"
   ],
   "note": ""
  },
  {
   "property": "C101",
   "status": "proved",
   "theorems": [
    "Chrono.Props.c101_first_two_are_a_range",
    "Chrono.Props.c101_first_is_printed",
    "Chrono.Props.c101_conditions_are_met_joined",
    "Chrono.Props.c101_conditions_are_met_separate",
    "Chrono.Props.c101_conditions_are_needed"
   ],
   "note": ""
  },
  {
   "property": "C102",
   "status": "proved",
   "theorems": [
    "Chrono.Props.c102_second_part_of_day_is_printed",
    "Chrono.Props.c102_conditions_are_met",
    "Chrono.Props.c102_conditions_are_needed"
   ],
   "note": ""
  }
 ]
}