{
 "claims": [
  {
   "property": "C01",
   "status": "proved",
   "theorems": [
    "Verif.Props.C01_standard_decoder_inverts_encode",
    "Verif.Props.C01_encode_injective"
   ]
  },
  {
   "property": "C02",
   "status": "partial",
   "theorems": [
    "Verif.Props.C02_decode_encode_exact",
    "Verif.Props.C02_decode_inverts_encode_partial",
    "Verif.Props.C02_round_trip_fails_iff_long",
    "Verif.Props.C02_round_trip_fails"
   ],
   "note": "false for inputs above 49152 bytes (C02_round_trip_fails); exact result and exact failure condition proved"
  },
  {
   "property": "C03",
   "status": "proved",
   "theorems": [
    "Verif.Props.C03_encode_alphabet",
    "Verif.Props.C03_encode_no_nul",
    "Verif.Props.C03_encode_length",
    "Verif.Props.C03_encode_line_length",
    "Verif.Props.C03_single_line_iff"
   ]
  },
  {
   "property": "C04",
   "status": "proved",
   "theorems": [
    "Verif.Props.C04_trim_correct",
    "Verif.Props.C04_trimmed_unique",
    "Verif.Props.C04_trim_defined_iff",
    "Verif.Props.C04_trim_ascii",
    "Verif.Props.C04_trim_idempotent",
    "Verif.Props.C04_trim_empty_iff",
    "Verif.Props.C04_trim_total"
   ]
  },
  {
   "property": "C05",
   "status": "proved",
   "theorems": [
    "Verif.Props.C05_case_length",
    "Verif.Props.C05_case_changes_only_letters",
    "Verif.Props.C05_case_idempotent",
    "Verif.Props.C05_case_equality"
   ]
  },
  {
   "property": "C06",
   "status": "proved",
   "theorems": [
    "Verif.Props.C06_three_digits",
    "Verif.Props.C06_code_of_any_text",
    "Verif.Props.C06_code_range",
    "Verif.Props.C06_no_code"
   ]
  },
  {
   "property": "C07",
   "status": "proved",
   "theorems": [
    "Verif.Props.C07_complete_iff",
    "Verif.Props.C07_covers"
   ]
  },
  {
   "property": "C08",
   "status": "proved",
   "theorems": [
    "Verif.Props.C08_mechanisms_of_first_auth_line",
    "Verif.Props.C08_nothing_reported",
    "Verif.Props.C08_no_crlf"
   ]
  },
  {
   "property": "C09",
   "status": "partial",
   "theorems": [
    "Verif.Props.C09_tls_partial",
    "Verif.Props.C09_clear_partial",
    "Verif.Props.C09_last_line_alone",
    "Verif.Props.C09_auth_line_lost",
    "Verif.Props.C09_opportunistic_second_batch",
    "Verif.Props.C09_tls_last_mechanism_lost"
   ],
   "note": "Proved for every reply and every way of cutting it at line boundaries: over TLS (all segmentations) when the only AUTH line is not the last line; in clear when the last batch has at least two lines and no later batch starts with an AUTH line. The remaining cases are refuted by concrete runs (C09_last_line_alone, C09_auth_line_lost, C09_opportunistic_second_batch, C09_tls_last_mechanism_lost)."
  },
  {
   "property": "C10",
   "status": "partial",
   "theorems": [
    "Verif.Props.C10_starttls_partial",
    "Verif.Props.C10_last_line_ignored",
    "Verif.Props.C10_second_batch_ignored"
   ],
   "note": "Proved for every world in which the session opens, the greeting is 220 and the EHLO reply (ASCII, with a line 250-STARTTLS) arrives in one batch with arbitrary cuts: the next command is STARTTLS. Refuted for 250 STARTTLS in the last line and for replies in several batches."
  },
  {
   "property": "C11",
   "status": "proved",
   "theorems": [
    "Verif.Props.C11_valid_iff",
    "Verif.Props.C11_case_insensitive",
    "Verif.Props.C11_constructor"
   ]
  },
  {
   "property": "C12",
   "status": "proved",
   "theorems": [
    "Verif.Props.C12_accepted_address_facts",
    "Verif.Props.C12_rcpt_one_line",
    "Verif.Props.C12_mail_from_one_line",
    "Verif.Props.C12_display_name_can_break"
   ]
  },
  {
   "property": "C13",
   "status": "partial",
   "theorems": [
    "Verif.Props.C13_server_reads_address_iff",
    "Verif.Props.C13_address_unambiguous_partial",
    "Verif.Props.C13_address_ambiguous"
   ],
   "note": "false for accepted addresses containing \">\" (C13_address_ambiguous); exact condition proved"
  },
  {
   "property": "C14",
   "status": "proved",
   "theorems": [
    "Verif.Props.C14_mime_type",
    "Verif.Props.C14_one_type",
    "Verif.Props.C14_extension_exists",
    "Verif.Props.C14_file_type",
    "Verif.Props.C14_case_insensitive"
   ]
  },
  {
   "property": "C15",
   "status": "proved",
   "theorems": [
    "Verif.Props.C15_header_value",
    "Verif.Props.C15_header_value_parses",
    "Verif.Props.C15_comma_ambiguous"
   ]
  },
  {
   "property": "C16",
   "status": "proved",
   "theorems": [
    "Verif.Props.C16_client_server_name",
    "Verif.Props.C16_set_server_name",
    "Verif.Props.C16_credential",
    "Verif.Props.C16_set_username",
    "Verif.Props.C16_set_password",
    "Verif.Props.C16_attachment",
    "Verif.Props.C16_attachment_null"
   ]
  },
  {
   "property": "C17",
   "status": "proved",
   "theorems": [
    "Verif.Props.C17_attachment",
    "Verif.Props.C17_credential_throw",
    "Verif.Props.C17_credential",
    "Verif.Props.C17_sendMail_keeps_config",
    "Verif.Props.C17_client_throw",
    "Verif.Props.C17_client"
   ]
  },
  {
   "property": "C18",
   "status": "partial",
   "theorems": [
    "Verif.Props.C18_values_partial",
    "Verif.Props.C18_copies_independent_partial",
    "Verif.Props.C18_own_text"
   ],
   "note": "Proved as a refinement of plain values for every program; excluded is giving a credential's setter its own text, where the claim is refuted (C18_own_text)."
  },
  {
   "property": "C19",
   "status": "partial",
   "theorems": [
    "Verif.Props.C19_assignment_partial",
    "Verif.Props.C19_sender_kept"
   ],
   "note": "Proved for everything but the sender, at every point of every program; the sender is refuted (C19_sender_kept)."
  },
  {
   "property": "C20",
   "status": "partial",
   "theorems": [
    "Verif.Props.C20_histories_partial",
    "Verif.Props.C20_stale_list",
    "Verif.Props.C20_null_subject"
   ],
   "note": "Proved for every program that does not destroy or move-assign to a message with a stale list and uses no null subject or body; refuted otherwise (C20_stale_list, C20_null_subject)."
  },
  {
   "property": "C21",
   "status": "proved",
   "theorems": [
    "Verif.Props.C21_conversion_keeps_content"
   ],
   "note": "All cpp messages built from constructed addresses and attachments, both classes, whether or not the data pointer of an empty vector is null. Moved-from address objects are excluded (they hold null pointers)."
  },
  {
   "property": "C22",
   "status": "partial",
   "theorems": [
    "Verif.Props.C22_secure_clients_partial",
    "Verif.Props.C22_base_clients",
    "Verif.Props.C22_handed_over",
    "Verif.Props.C22_method_lost"
   ],
   "note": "Proved for whole lives of the two secure cpp clients and of all base clients; false for cpp::SmtpClient, which drops the method (C22_method_lost)."
  },
  {
   "property": "C23",
   "status": "partial",
   "theorems": [
    "Verif.Props.C23_careful_programs_partial",
    "Verif.Props.C23_double_delete",
    "Verif.Props.C23_own_credentials"
   ],
   "note": "False in general: after a copy or move, setting credentials on both deletes twice (C23_double_delete, for every careful program and every copy), and setting a client's own credentials reads deleted memory. Proved for every program that never replaces shared credentials."
  },
  {
   "property": "C24",
   "status": "proved",
   "theorems": [
    "Verif.Props.C24_specific_iff",
    "Verif.Props.C24_messages_distinct",
    "Verif.Props.C24_getErrorMessage",
    "Verif.Props.C24_timeouts_are_named"
   ]
  },
  {
   "property": "C25",
   "status": "partial",
   "theorems": [
    "Verif.Props.C25_writes_longest_prefix",
    "Verif.Props.C25_return_value_exact",
    "Verif.Props.C25_return_value_partial",
    "Verif.Props.C25_return_value_fails",
    "Verif.Props.C25_rejects"
   ],
   "note": "the return value is wrong for buffers of length 1 (C25_return_value_fails); everything else proved, exact condition proved"
  },
  {
   "property": "C26",
   "status": "proved",
   "theorems": [
    "Verif.Props.C26_log_in_bounds",
    "Verif.Props.C26_session_log_in_bounds"
   ]
  },
  {
   "property": "C27",
   "status": "proved",
   "theorems": [
    "Verif.Props.C27_log_exact",
    "Verif.Props.C27_client_items",
    "Verif.Props.C27_client_items_injective",
    "Verif.Props.C27_append_only",
    "Verif.Props.C27_new_session_new_log",
    "Verif.Props.C27_only_entries"
   ]
  },
  {
   "property": "C28",
   "status": "proved",
   "theorems": [
    "Verif.Props.C28_log_tells_no_credentials",
    "Verif.Props.C28_whole_life"
   ],
   "note": "Two-run (relational) proof over the whole session model. Two clients differing only in user name and password, in any world whose answers do not depend on them, return the same result and leave the same log; also for whole sequences of API calls."
  },
  {
   "property": "C29",
   "status": "partial",
   "theorems": [
    "Verif.Props.C29_constructors_nul_free",
    "Verif.Props.C29_zero_means_delivered_partial",
    "Verif.Props.C29_zero_reply_counts_as_success",
    "Verif.Props.C29_short_writes_count_as_success",
    "Verif.Props.C29_descriptor_zero"
   ],
   "note": "false when a reply reads as number 0, when a write is short, or when the socket has number 0 (three witnesses); proved when none of these happens"
  },
  {
   "property": "C30",
   "status": "partial",
   "theorems": [
    "Verif.Props.C30_content_only_after_agreement_partial",
    "Verif.Props.C30_zero_reply_agrees"
   ],
   "note": "false when a reply reads as number 0 (C30_zero_reply_agrees); proved for all executions, also failing ones, otherwise"
  },
  {
   "property": "C31",
   "status": "partial",
   "theorems": [
    "Verif.Props.C31_recipients_in_order_partial",
    "Verif.Props.C31_announced_partial",
    "Verif.Props.C31_zero_skips_recipients"
   ],
   "note": "Order and no repetition proved for all runs, also failing ones. That none is skipped is false when a reply reads as number 0 (C31_zero_skips_recipients); proved otherwise, also with short writes (C31_announced_partial)."
  },
  {
   "property": "C32",
   "status": "proved",
   "theorems": [
    "Verif.Props.C32_same_from_data",
    "Verif.Props.C32_only_in_rcpt"
   ],
   "note": "Relational proof: whatever the past of the client, two messages that differ in Bcc only give the same events from DATA on and the same result when the world answers alike from there on and DATA goes over a connection (not to descriptor 0 after a lost connection). Every text sent is one that may be sent for the message without Bcc, or RCPT TO a Bcc address (messages made by the constructors: no NUL)."
  },
  {
   "property": "C33",
   "status": "proved",
   "theorems": [
    "Verif.Props.C33_body_complete_in_pieces"
   ]
  },
  {
   "property": "C34",
   "status": "partial",
   "theorems": [
    "Verif.Props.C34_transparent_iff",
    "Verif.Props.C34_receiver_gets_data_partial",
    "Verif.Props.C34_data_cut"
   ],
   "note": "Exact criterion: the receiver gets the data iff no data line begins with a period (C34_transparent_iff); proved for bodies without such lines, refuted for others (no dot-stuffing: C34_data_cut)."
  },
  {
   "property": "C35",
   "status": "partial",
   "theorems": [
    "Verif.Props.C35_header_section_iff",
    "Verif.Props.C35_no_added_lines_partial",
    "Verif.Props.C35_injected_header"
   ],
   "note": "Exact criterion: header section as meant iff no CRLF in subject and display names (C35_header_section_iff); refuted otherwise (C35_injected_header)."
  },
  {
   "property": "C36",
   "status": "partial",
   "theorems": [
    "Verif.Props.C36_parsed_back_partial",
    "Verif.Props.C36_not_closed",
    "Verif.Props.C36_body_cut"
   ],
   "note": "Proved for messages with attachments and bodies without the boundary, with one extra line end after the body; without attachments the multipart is never closed (C36_not_closed), and the fixed boundary can be in the body (C36_body_cut)."
  },
  {
   "property": "C37",
   "status": "partial",
   "theorems": [
    "Verif.Props.C37_files_arrive_partial",
    "Verif.Props.C37_large_file"
   ],
   "note": "Proved for files below 4 GiB; refuted for a file of 4 GiB (C37_large_file)."
  },
  {
   "property": "C38",
   "status": "partial",
   "theorems": [
    "Verif.Props.C38_forced",
    "Verif.Props.C38_opportunistic_partial",
    "Verif.Props.C38_public_is_not_auth",
    "Verif.Props.C38_sticky_flag"
   ],
   "note": "false for the opportunistic client after one session without STARTTLS (C38_sticky_flag); proved for the forced client and for the opportunistic client while its send commands are not switched"
  },
  {
   "property": "C39",
   "status": "partial",
   "theorems": [
    "Verif.Props.C39_forced_partial",
    "Verif.Props.C39_descriptor_zero"
   ],
   "note": "false when the operating system gives socket number 0 (C39_descriptor_zero); proved when it never does"
  },
  {
   "property": "C40",
   "status": "partial",
   "theorems": [
    "Verif.Props.C40_forced",
    "Verif.Props.C40_secure_partial",
    "Verif.Props.C40_unverified_reuse"
   ],
   "note": "proved for the forced client without condition; false for the opportunistic client after a failure to load the system's certificates (C40_unverified_reuse), proved for it when that does not happen"
  },
  {
   "property": "C41",
   "status": "partial",
   "theorems": [
    "Verif.Props.C41_mechanism_partial",
    "Verif.Props.C41_no_offer_crashes",
    "Verif.Props.C41_crash_reachable"
   ],
   "note": "false when the server offers no mechanism (C41_no_offer_crashes, C41_crash_reachable); proved for every offer"
  },
  {
   "property": "C42",
   "status": "partial",
   "theorems": [
    "Verif.Props.C42_commands_without_nul",
    "Verif.Props.C42_plain_partial",
    "Verif.Props.C42_login_partial",
    "Verif.Props.C42_xoauth2_partial",
    "Verif.Props.C42_long_credentials_break_the_line",
    "Verif.Props.C42_xoauth2_ambiguous",
    "Verif.Props.C42_exchange_partial"
   ],
   "note": "false for credentials of 49150 bytes and more and for XOAUTH2 user names containing byte 1; exact conditions proved"
  },
  {
   "property": "C43",
   "status": "partial",
   "theorems": [
    "Verif.Props.C43_seconds_between_commands_partial",
    "Verif.Props.C43_one_wait_partial",
    "Verif.Props.C43_timeout_zero_sleeps",
    "Verif.Props.C43_blocking_greeting",
    "Verif.Props.C43_endless_reply"
   ],
   "note": "Proved: seconds slept for every reply are bounded by max 1 timeout, in every run. Refuted: timeout 0 still sleeps once; the greeting read blocks for ever; endless data keep a clear-text wait running"
  },
  {
   "property": "C44",
   "status": "partial",
   "theorems": [
    "Verif.Props.C44_cleanup_recursion",
    "Verif.Props.C44_sendMail_recursion",
    "Verif.Props.C44_cleanup_terminates_partial",
    "Verif.Props.C44_cleanup_without_batch"
   ],
   "note": "Refuted: batch-mode cleanup recurses until the stack is used up when writes fail. Proved: it returns in all other cases (no batch mode: always)"
  },
  {
   "property": "C45",
   "status": "partial",
   "theorems": [
    "Verif.Props.C45_closed_once_partial",
    "Verif.Props.C45_successful_lives",
    "Verif.Props.C45_overwritten_leaks",
    "Verif.Props.C45_overwritten_leaks_tls",
    "Verif.Props.C45_descriptor_zero",
    "Verif.Props.C45_closes_minus_one"
   ],
   "note": "False: a failed connection attempt leaves its socket open and the next one overwrites it (C45_overwritten_leaks), descriptor 0 is never closed, close(-1) after a failed socket(). Proved for every history and server: only open sockets are closed, each socket is closed as often as opened unless overwritten, and always when every mail was sent with success."
  },
  {
   "property": "C46",
   "status": "partial",
   "theorems": [
    "Verif.Props.C46_batch_partial",
    "Verif.Props.C46_without_batch_partial",
    "Verif.Props.C46_second_connection",
    "Verif.Props.C46_no_quit",
    "Verif.Props.C46_not_its_own"
   ],
   "note": "Batch of successful sends shares one connection and ends with QUIT; without batch each success has its own. Missing: runs that wrote to descriptor 0 or whose end mark was answered by code 0, and clients still connected after a refusal; refuted in those cases by C46_second_connection, C46_no_quit, C46_not_its_own."
  },
  {
   "property": "C47",
   "status": "partial",
   "theorems": [
    "Verif.Props.C47_fresh_start_partial",
    "Verif.Props.C47_old_transaction_reused"
   ],
   "note": "Proved for failures that are reported by the library itself; after a refusal by the server (e.g. 550) the old connection and the old transaction are reused (C47_old_transaction_reused)."
  },
  {
   "property": "C48",
   "status": "partial",
   "theorems": [
    "Verif.Props.C48_values_of_sendMail_partial",
    "Verif.Props.C48_undocumented_value",
    "Verif.Props.C48_kinds_collide"
   ],
   "note": "false: 1 is returned when fcntl fails (C48_undocumented_value); that is the only exception (C48_values_of_sendMail_partial)"
  },
  {
   "property": "C49",
   "status": "partial",
   "theorems": [
    "Verif.Props.C49_causes_partial",
    "Verif.Props.C49_one_object_partial",
    "Verif.Props.C49_no_undefined_behaviour_partial",
    "Verif.Props.C49_constructed_messages",
    "Verif.Props.C49_cpp_messages",
    "Verif.Props.C49_long_reply",
    "Verif.Props.C49_every_long_read",
    "Verif.Props.C49_no_mechanisms",
    "Verif.Props.C49_strange_reply",
    "Verif.Props.C49_high_descriptor",
    "Verif.Props.C49_long_address",
    "Verif.Props.C49_long_name"
   ],
   "note": "C49_causes_partial: in every program over any number of objects and every world, undefined behaviour has one of eight listed causes; C49_no_undefined_behaviour_partial: none without them. The causes are real: C49_long_reply, C49_no_mechanisms, C49_strange_reply, C49_high_descriptor, C49_long_name, C49_long_address."
  },
  {
   "property": "C50",
   "status": "proved",
   "theorems": [
    "Verif.Props.C50_one_owner",
    "Verif.Props.C50_never_closed_twice",
    "Verif.Props.C50_copy",
    "Verif.Props.C50_move",
    "Verif.Props.C50_assign",
    "Verif.Props.C50_move_assign",
    "Verif.Props.C50_assignment_leaks",
    "Verif.Props.C50_copy_of_moved"
   ],
   "note": "Every program over any number of client objects, with API calls against any server in between; assumes that the operating system hands out unused descriptors. Assignment onto a connected client loses its socket (C50_assignment_leaks), which the property does not exclude."
  },
  {
   "property": "C51",
   "status": "proved",
   "theorems": [
    "Verif.Props.C51_mail_from_fallback",
    "Verif.Props.C51_mail_from_order_always",
    "Verif.Props.C51_forms_differ"
   ]
  },
  {
   "property": "C52",
   "status": "proved",
   "theorems": [
    "Verif.Props.C52_session_needs_connection",
    "Verif.Props.C52_large_port"
   ]
  },
  {
   "property": "C53",
   "status": "partial",
   "theorems": [
    "Verif.Props.C53_tls_reply_in_time_partial",
    "Verif.Props.C53_greeting_in_time_partial",
    "Verif.Props.C53_reply_at_timeout_lost",
    "Verif.Props.C53_greeting_at_timeout_lost"
   ],
   "note": "Proved for every reply that arrives before the waiting time reaches the timeout (greeting and TLS replies). Refuted at exactly the timeout: the data are read and dropped and the timeout code is returned. The raw reply loop is treated with C09/C10."
  },
  {
   "property": "C54",
   "status": "partial",
   "theorems": [
    "Verif.Props.C54_lock_step_partial",
    "Verif.Props.C54_reply_to_wrong_command"
   ],
   "note": "Proved: no command before all earlier ones had something read after them or the timeout passed, for the whole life of a client. Refuted: a reply in two parts over TLS is attributed to the next command"
  },
  {
   "property": "C55",
   "status": "partial",
   "theorems": [
    "Verif.Props.C55_all_given_back_partial",
    "Verif.Props.C55_content_id_lost"
   ],
   "note": "Proved for programs that do not change the content id of an attachment; refuted with it (C55_content_id_lost)."
  },
  {
   "property": "C56",
   "status": "partial",
   "theorems": [
    "Verif.Props.C56_mail_only_after_login_partial",
    "Verif.Props.C56_skipped_without_starttls",
    "Verif.Props.C56_zero_greeting"
   ],
   "note": "Proved for every execution: a non-empty mail part starts with MAIL FROM on the channel where the opening ended with a complete exchange carrying exactly the credentials, answered 235. Missing because false: the opportunistic client without STARTTLS sends unauthenticated (refuted), replies that read as 0 (refuted); credentials too long or ambiguous for the protocol (C42)."
  },
  {
   "property": "C57",
   "status": "partial",
   "theorems": [
    "Verif.Props.C57_no_downgrade_partial",
    "Verif.Props.C57_zero_reply"
   ],
   "note": "Proved for every opportunistic client, message and environment, except when STARTTLS is answered by a text that reads as code 0 (refuted by C57_zero_reply) or the socket has number 0."
  },
  {
   "property": "C58",
   "status": "partial",
   "theorems": [
    "Verif.Props.C58_never_truncated_partial",
    "Verif.Props.C58_zero_reply"
   ],
   "note": "Proved for all runs, except after a reply that reads as number 0 (refuted: C58_zero_reply), writes to descriptor 0, and short writes, which the code ignores."
  },
  {
   "property": "C59",
   "status": "partial",
   "theorems": [
    "Verif.Props.C59_client_values_partial",
    "Verif.Props.C59_sessions_partial",
    "Verif.Props.C59_new_buffer_noted",
    "Verif.Props.C59_own_name",
    "Verif.Props.C59_own_credential"
   ],
   "note": "Refinement of the heap program to plain values for every program that follows the rules of C59_client_values_partial, and, with the memory steps that sessions note, for every program whose clients run sessions against any environment. Missing because false: giving a client its own server name or credential reads deleted memory (C59_own_name, C59_own_credential)."
  },
  {
   "property": "C60",
   "status": "partial",
   "theorems": [
    "Verif.Props.C60_exact",
    "Verif.Props.C60_nothing_left_partial",
    "Verif.Props.C60_sessions_exact",
    "Verif.Props.C60_assignment_leaks",
    "Verif.Props.C60_ehlo_leaks"
   ],
   "note": "The number of blocks left when all clients are gone is counted exactly, for every heap program (C60_exact) and for every program with sessions (C60_sessions_exact). It is 0 without copy assignment and without an AUTH line inside a reply to EHLO (C60_nothing_left_partial). Missing because false: copy assignment loses log, response and credential (C60_assignment_leaks); parsing a reply with an AUTH line inside loses a block (C60_ehlo_leaks)."
  },
  {
   "property": "C61",
   "status": "partial",
   "theorems": [
    "Verif.Props.C61_in_order",
    "Verif.Props.C61_nothing_skipped_partial",
    "Verif.Props.C61_zero_skips"
   ],
   "note": "Order proved for all runs. The claim that nothing is skipped is proved except for runs in which a reply reads as number 0, where it is refuted; credentials longer than a line or with NUL are excluded."
  },
  {
   "property": "C62",
   "status": "proved",
   "theorems": [
    "Verif.Props.C62_replies_on_channel",
    "Verif.Props.C62_every_call"
   ],
   "note": "All clients, all sequences of calls, all environments."
  },
  {
   "property": "C64",
   "status": "proved",
   "theorems": [
    "Verif.Props.C64_reads_exactly_the_attached_files",
    "Verif.Props.C64_success_reads_all",
    "Verif.Props.C64_no_file_before_agreement"
   ],
   "note": "For every run: all or nothing, in order, after the server agreed; success means all."
  },
  {
   "property": "C63",
   "status": "partial",
   "theorems": [
    "Verif.Props.C63_offered_partial",
    "Verif.Props.C63_plain_client",
    "Verif.Props.C63_forced_client",
    "Verif.Props.C63_other_channel"
   ],
   "note": "Proved for every call of sendMail of a client that has not switched to the base send commands, and for the whole life of plain and forced clients. Refuted for the opportunistic client after a session without STARTTLS: EHLO goes over TLS and AUTH in clear (C63_other_channel). 'Listed' means: after 250-AUTH or 250 AUTH in the text read, a space and the name."
  },
  {
   "property": "C65",
   "status": "partial",
   "theorems": [
    "Verif.Props.C65_sent_to_configured_partial",
    "Verif.Props.C65_new_connection",
    "Verif.Props.C65_old_server",
    "Verif.Props.C65_to_zero"
   ],
   "note": "Every send of a life goes to a connection opened to the name and port configured at its opening and not closed since, or to descriptor 0; a new connection goes to the server configured at the call. Refuted with witnesses: after a failed write commands go to descriptor 0 (C65_to_zero); in batch mode a changed server name or port is ignored while the connection lives (C65_old_server)."
  },
  {
   "property": "C66",
   "status": "partial",
   "theorems": [
    "Verif.Props.C66_session_needs_connection",
    "Verif.Props.C66_failed_start_is_balanced",
    "Verif.Props.C66_never_too_many_stops",
    "Verif.Props.C66_running_while_connected_partial",
    "Verif.Props.C66_balanced_partial",
    "Verif.Props.C66_restart_leaks",
    "Verif.Props.C66_assign_leaks",
    "Verif.Props.C66_move_stops_winsock",
    "Verif.Props.C66_closes_after_stop",
    "Verif.Props.C66_null_log"
   ],
   "note": "The order of the opening and 'never more stops than starts' hold for all programs. That Winsock runs while an object is connected is proved for programs without moves, the balance for programs without moves, assignments and refused sessions left open; the rest is refuted by concrete programs (leaks after restart and assignment, stop under a moved connection, close after stop, null log). The dialogue is replaced by an arbitrary end."
  },
  {
   "property": "C67",
   "status": "partial",
   "theorems": [
    "Verif.Props.C67_zero_means_checked",
    "Verif.Props.C67_store_closed_partial",
    "Verif.Props.C67_store_left_open",
    "Verif.Props.C67_failure_closes"
   ],
   "note": "The check of the certificate and the closed connection are proved for all executions. The store is closed exactly when the code is not -55 to -58; that it stays open then is shown by a run."
  },
  {
   "property": "C68",
   "status": "partial",
   "theorems": [
    "Verif.Props.C68_other_past_partial",
    "Verif.Props.C68_new_process_partial",
    "Verif.Props.C68_plain_new_process",
    "Verif.Props.C68_no_residue_partial",
    "Verif.Props.C68_same_log_partial",
    "Verif.Props.C68_like_new",
    "Verif.Props.C68_after_rejected_login",
    "Verif.Props.C68_after_plain_session"
   ],
   "note": "Proved for the plain and the forced client after any calls (C68_like_new), and for any two clients of any kind with the same settings and the same TLS objects. The later theorems drop the common history: two clients at rest with the same settings, after whatever different histories, do the same in worlds that answer alike from then on (C68_other_past_partial, C68_new_process_partial, C68_plain_new_process). False for the opportunistic client: a refused login leaves the old TLS connection behind, over which the next session says EHLO, and a session without STARTTLS leaves the flag of the base send commands set; both witnessed."
  },
  {
   "property": "C69",
   "status": "partial",
   "theorems": [
    "Verif.Props.C69_commands_shown_partial",
    "Verif.Props.C69_until_the_end_partial",
    "Verif.Props.C69_forged"
   ],
   "note": "Every command is shown, for all lives of a client (C69_commands_shown_partial, C69_until_the_end_partial). The converse is false: replies are logged unescaped, so a server can write lines that look like commands (C69_forged)."
  },
  {
   "property": "C70",
   "status": "proved",
   "theorems": [
    "Verif.Props.C70_waiting_is_bounded",
    "Verif.Props.C70_open_session",
    "Verif.Props.C70_ehlo_in_parts"
   ],
   "note": "All runs. The EHLO parts cannot be left out: C70_ehlo_in_parts."
  },
  {
   "property": "C71",
   "status": "partial",
   "theorems": [
    "Verif.Props.C71_conversation_recorded_partial",
    "Verif.Props.C71_until_the_end_partial",
    "Verif.Props.C71_late"
   ],
   "note": "Proved for all runs, with what is read when the timeout has fully elapsed left out: such text is read and discarded (C71_late). The converse is refuted by C69_forged."
  },
  {
   "property": "C72",
   "status": "partial",
   "theorems": [
    "Verif.Props.C72_every_mail_is_sent_partial",
    "Verif.Props.C72_will_forward"
   ],
   "note": "Proved for servers that use the one code the client expects (a recipient accepted with 251 makes sendMail return 251: C72_will_forward), whose replies arrive in one batch in clear and in one read over TLS (split replies are misread: C09_last_line_alone, C09_auth_line_lost), for names and numbers that fit the buffers (otherwise C49), and without setKeepUsingBaseSendCommands (which makes a secure client write in clear, C38)."
  },
  {
   "property": "C73",
   "status": "partial",
   "theorems": [
    "Verif.Props.C73_out_of_memory_partial",
    "Verif.Props.C73_assigned_then_destroyed",
    "Verif.Props.C73_set_then_destroyed",
    "Verif.Props.C73_constructor_loses"
   ],
   "note": "Proved for every program that no longer touches an object whose copy assignment, or a credential whose setter, failed. Refuted: the destructor of such an object frees twice (C73_assigned_then_destroyed, C73_set_then_destroyed); a constructor that fails half way loses the blocks it had (C73_constructor_loses)."
  },
  {
   "property": "C74",
   "status": "partial",
   "theorems": [
    "Verif.Props.C74_exact",
    "Verif.Props.C74_all_given_back_partial",
    "Verif.Props.C74_empty_array_lost"
   ],
   "note": "Proved for programs that construct no message with an array of no elements, with the number of blocks left in general (C74_exact); refuted otherwise (C74_empty_array_lost)."
  },
  {
   "property": "C75",
   "status": "partial",
   "theorems": [
    "Verif.Props.C75_freed_partial",
    "Verif.Props.C75_successful_lives",
    "Verif.Props.C75_overwritten"
   ],
   "note": "Proved: freed exactly once, or a further TLS connection was asked for later; and exactly once in every life whose sends all returned 0. Refuted in full: a connection left by a refused login is overwritten by the next attempt and never freed (C75_overwritten). SSL_CTX objects are only a flag of the model and are not counted."
  },
  {
   "property": "C76",
   "status": "partial",
   "theorems": [
    "Verif.Props.C76_same_life_partial",
    "Verif.Props.C76_secure_same_life",
    "Verif.Props.C76_method_forgotten"
   ],
   "note": "Proved: identical lives for both secure clients, and for cpp::SmtpClient with the recommended authentication method replaced by implicit. Refuted in full: cpp::SmtpClient drops that method (C76_method_forgotten)."
  },
  {
   "property": "C77",
   "status": "partial",
   "theorems": [
    "Verif.Props.C77_welcomed_partial",
    "Verif.Props.C77_zero_greeting"
   ],
   "note": "Proved for every server whose replies never read as 0 during the opening. Refuted in full: a greeting 000 is taken for success of the whole opening and the mail follows without EHLO (C77_zero_greeting)."
  },
  {
   "property": "C78",
   "status": "partial",
   "theorems": [
    "Verif.Props.C78_clear_only_if_not_offered_partial",
    "Verif.Props.C78_after_refused_login",
    "Verif.Props.C78_offer_in_last_line",
    "Verif.Props.C78_after_plain_session",
    "Verif.Props.C78_zero_reply"
   ],
   "note": "Proved for every client without a TLS connection left over and not set to the base send commands, unless a reply reads as 0; the offer looked for is 250-STARTTLS. The rest is refuted by runs: after a refused login the next mail goes out in clear on a connection without EHLO, after a session without the offer the client stays with clear text, an offer in the last line is not seen, and STARTTLS answered by 000."
  },
  {
   "property": "C79",
   "status": "partial",
   "theorems": [
    "Verif.Props.C79_modes_partial",
    "Verif.Props.C79_refused",
    "Verif.Props.C79_refused_fresh",
    "Verif.Props.C79_zero"
   ],
   "note": "For all lives of a client, given that the operating system does not hand out descriptors in use. Missing: descriptor 0 and sockets whose mode the operating system refused to change; both refuted by concrete runs (the result of switching back is ignored)."
  },
  {
   "property": "C80",
   "status": "partial",
   "theorems": [
    "Verif.Props.C80_in_turn_partial",
    "Verif.Props.C80_zero",
    "Verif.Props.C80_after_end"
   ],
   "note": "Proved for all lives of all clients: whatever is sent on a channel other than QUIT is sent when data was received there after every command sent there before. Missing because false: after a recipient without reply the remaining recipients are written to descriptor 0 without waiting for replies to each other (C80_zero); in clear, a reply followed by the end of the connection counts as a reply and the next command is sent on the closed connection (C80_after_end)."
  },
  {
   "property": "C81",
   "status": "partial",
   "theorems": [
    "Verif.Props.C81_one_holder_partial",
    "Verif.Props.C81_all_closed_partial",
    "Verif.Props.C81_refused_leaks",
    "Verif.Props.C81_assign_leaks",
    "Verif.Props.C81_left_open_leaks",
    "Verif.Props.C81_closes_minus_one"
   ],
   "note": "one owner, use only while open and no double close hold for all programs (handle -1 after a failed socket excepted: it is shut down and closed); that every socket is closed is proved for programs without assignment, refused connections and sessions left unclosed, and refuted for each of these"
  },
  {
   "property": "C82",
   "status": "partial",
   "theorems": [
    "Verif.Props.C82_code_names_step_partial",
    "Verif.Props.C82_codes_never_returned",
    "Verif.Props.C82_garbled",
    "Verif.Props.C82_login_timeout",
    "Verif.Props.C82_address_header",
    "Verif.Props.C82_no_tls",
    "Verif.Props.C82_interrupted"
   ],
   "note": "Proved for calls in which every reply read starts with a positive number. Refuted otherwise (an unintelligible reply is reported at once as a timeout, an unintelligible greeting as a failure to create the socket); the causes of -81, -93, -91 and -3 are wider than documented, each with a concrete run."
  },
  {
   "property": "C83",
   "status": "proved",
   "theorems": [
    "Verif.Props.C83_opening_reports",
    "Verif.Props.C83_code_names_step",
    "Verif.Props.C83_mode_reports",
    "Verif.Props.C83_number_overwritten",
    "Verif.Props.C83_number_kept"
   ],
   "note": "names and system texts without NUL byte (they are C strings); C83_number_overwritten shows the case in which the number of the first failure is lost"
  },
  {
   "property": "C84",
   "status": "partial",
   "theorems": [
    "Verif.Props.C84_content_after_agreement_partial",
    "Verif.Props.C84_never_truncated_partial",
    "Verif.Props.C84_bcc_only_in_rcpt_partial",
    "Verif.Props.C84_files_partial",
    "Verif.Props.C84_opportunistic_public_partial",
    "Verif.Props.C84_no_downgrade_partial",
    "Verif.Props.C84_same_dialogue_partial",
    "Verif.Props.C84_transfer_partial",
    "Verif.Props.C84_each_mail_partial",
    "Verif.Props.C84_zero_means_delivered_partial",
    "Verif.Props.C84_forced_public_partial",
    "Verif.Props.C84_codes_partial",
    "Verif.Props.C84_header_left_out",
    "Verif.Props.C84_session_left_open",
    "Verif.Props.C84_posix_closes",
    "Verif.Props.C84_opening_agrees",
    "Verif.Props.C84_whole_life_partial",
    "Verif.Props.C84_destructor_partial",
    "Verif.Props.C84_login_first_partial",
    "Verif.Props.C84_welcomed_partial",
    "Verif.Props.C84_receiver_gets_data_partial",
    "Verif.Props.C84_header_section_partial",
    "Verif.Props.C84_parts_arrive_partial",
    "Verif.Props.C84_line_lengths_partial",
    "Verif.Props.C84_in_order_partial",
    "Verif.Props.C84_command_lengths_partial",
    "Verif.Props.C84_lock_step_partial",
    "Verif.Props.C84_waiting_partial"
   ],
   "note": "Proved when no line has 2 GiB or more; without this the statement is false (a header of that size is left out, a line of that size leaves the session open). With the destructor: what is sent and read is the same; the whole dialogue is when it finds an open session (otherwise the closing of the socket that a failed opening leaves can differ). From it follow C29, C30, C32, C34, C35, C36, C37, C38, C54, C56, C57, C58, C61, C64, C70, C77, C82, C93 and C94 on Windows."
  },
  {
   "property": "C85",
   "status": "partial",
   "theorems": [
    "Verif.Props.C85_plain",
    "Verif.Props.C85_last",
    "Verif.Props.C85_opening",
    "Verif.Props.C85_tls_partial",
    "Verif.Props.C85_stale",
    "Verif.Props.C85_reading",
    "Verif.Props.C85_tls_late",
    "Verif.Props.C85_certificate"
   ],
   "note": "Proved for clients without TLS (number of the last failing system call, for every run) and for the codes of the opening; for clients with TLS that the number is that of the last failing system call or one the TLS library gave later. Refuted with witnesses: the number is not reset by a call, failed reads and refused certificates leave none, and the TLS library is asked only after the session was closed."
  },
  {
   "property": "C86",
   "status": "partial",
   "theorems": [
    "Verif.Props.C86_same_until_data_partial",
    "Verif.Props.C86_name_in_envelope",
    "Verif.Props.C86_not_agreed"
   ],
   "note": "Proved with two further moments where the runs can part: a reply to DATA that reads as 0, and (when the senders' names differ) MAIL FROM refused with 501. For these the statement is false: C86_not_agreed, C86_name_in_envelope."
  },
  {
   "property": "C87",
   "status": "partial",
   "theorems": [
    "Verif.Props.C87_clients_out_of_memory_partial",
    "Verif.Props.C87_plenty_of_memory",
    "Verif.Props.C87_spoilt_for_good",
    "Verif.Props.C87_response_then_destroyed",
    "Verif.Props.C87_log_then_destroyed",
    "Verif.Props.C87_name_then_read",
    "Verif.Props.C87_credential_then_destroyed",
    "Verif.Props.C87_assigned_then_destroyed",
    "Verif.Props.C87_copy_loses"
   ],
   "note": "Proved for every choice of failing allocations: a program that no longer uses a client whose assignment or setServerName failed, whose credential was to be replaced, or whose session failed while replacing the log or the last reply, is free of memory errors, other clients keep what they show, moves and destructors do not fail; a first log, first reply or first credential that fails changes nothing; with plenty of memory nothing fails. The rest is refuted: after a failed replacement of the log, the reply or the credential the destructor breaks the rules in every program (C87_spoilt_for_good), after a failed assignment or setServerName in concrete ones; a failed copy loses memory."
  },
  {
   "property": "C88",
   "status": "partial",
   "theorems": [
    "Verif.Props.C88_messages_out_of_memory_partial",
    "Verif.Props.C88_plenty_of_memory",
    "Verif.Props.C88_assigned_then_destroyed",
    "Verif.Props.C88_array_then_destroyed",
    "Verif.Props.C88_move_assignment_ends_program",
    "Verif.Props.C88_copy_loses"
   ],
   "note": "Proved for programs that no longer use, not even destroy, a message whose assignment failed, with a failed move assignment ending the program. The rest is refuted: C88_assigned_then_destroyed, C88_array_then_destroyed, C88_move_assignment_ends_program, C88_copy_loses."
  },
  {
   "property": "C89",
   "status": "proved",
   "theorems": [
    "Verif.Props.C89_same_until_login",
    "Verif.Props.C89_same_message"
   ],
   "note": "For whole lives of a client and for a single message, in any environment; the credentials differ in user name and password only."
  },
  {
   "property": "C90",
   "status": "proved",
   "theorems": [
    "Verif.Props.C90_relaxes_nothing_else",
    "Verif.Props.C90_other_verdicts"
   ],
   "note": "For whole lives of a client, in any environment and from any state."
  },
  {
   "property": "C91",
   "status": "proved",
   "theorems": [
    "Verif.Props.C91_same_until_timeout",
    "Verif.Props.C91_longer_timeout"
   ],
   "note": "Whole life of a client on POSIX. For two timeouts of which one is 0 the first theorem says nothing (a wait of 0 seconds is always found); C91_longer_timeout needs T at least 1 for the same reason. The Windows code is not covered."
  },
  {
   "property": "C92",
   "status": "proved",
   "theorems": [
    "Verif.Props.C92_write_only"
   ],
   "note": "Whole life of a client on POSIX."
  },
  {
   "property": "C93",
   "status": "partial",
   "theorems": [
    "Verif.Props.C93_commands_partial",
    "Verif.Props.C93_no_login_partial",
    "Verif.Props.C93_text_partial",
    "Verif.Props.C93_constructor_accepts",
    "Verif.Props.C93_long_command",
    "Verif.Props.C93_long_line"
   ],
   "note": "Commands: proved for addresses of at most 254 octets, a sender name of at most 240 and credentials of at most 9000. Lines of the message: proved when the header fields, the lines of the body and the names of attachments fit and no file has more than 747 bytes, unless a reply reads as number 0. Refuted for longer addresses, which the constructor accepts, and for longer files: an attachment is sent as one base64 line."
  },
  {
   "property": "C94",
   "status": "partial",
   "theorems": [
    "Verif.Props.C94_shown_as_meant_partial",
    "Verif.Props.C94_name_with_comma",
    "Verif.Props.C94_other_sender"
   ],
   "note": "Proved for subjects and display names without CRLF (see C35) whose display names and addresses need no quoting. The rest is refuted: C94_name_with_comma (a display name with a comma is read as two recipients), C94_other_sender (a display name with angle brackets is read as another sender). Runs with the flaws of C29 (reply that reads as 0, writes to descriptor 0, short writes) are excepted."
  },
  {
   "property": "C95",
   "status": "partial",
   "theorems": [
    "Verif.Props.C95_files_shown_partial",
    "Verif.Props.C95_windows_partial",
    "Verif.Props.C95_quote_in_name",
    "Verif.Props.C95_backslash_in_name",
    "Verif.Props.C95_no_type"
   ],
   "note": "Proved for messages as in C36 (one-line texts, no line of the body begins like a delimiter, files below 4 GiB) and attachments whose name has no quote and no backslash and whose content id has no closing bracket. The rest is refuted: C95_quote_in_name (the name is cut and a second file name appears), C95_backslash_in_name (backslashes are lost). C95_no_type: an extension that is not in the table gives an empty type. Runs with the flaws of C29 are excepted."
  },
  {
   "property": "C96",
   "status": "partial",
   "theorems": [
    "Verif.Props.C96_seven_bit_partial",
    "Verif.Props.C96_windows_partial",
    "Verif.Props.C96_eight_bit_unasked"
   ],
   "note": "Proved for all messages of US-ASCII, with any files, paths, user names and passwords, in every run, on POSIX and on Windows (C96_windows_partial). Missing: other texts, for which the statement is refuted (C96_eight_bit_unasked)."
  },
  {
   "property": "C97",
   "status": "partial",
   "theorems": [
    "Verif.Props.C97_line_ends_partial",
    "Verif.Props.C97_windows_partial",
    "Verif.Props.C97_lone_line_feed"
   ],
   "note": "Proved for all messages in whose texts CR and LF occur only together, with any files, user names and passwords, for every command in every run and for the text of the message as one stream, on POSIX and on Windows (C97_windows_partial). Missing: other texts, for which the statement is refuted (C97_lone_line_feed), and the text in runs in which a reply reads as number 0."
  }
 ]
}