{
 "claims": [
  {
   "property": "C01",
   "status": "proved",
   "theorems": [
    "Cppnet.C01_split",
    "Cppnet.C01_split_unique",
    "Cppnet.C01_split_keep"
   ],
   "note": ""
  },
  {
   "property": "C02",
   "status": "partial",
   "theorems": [
    "Cppnet.C02_split_terminates_refuted",
    "Cppnet.C02_split_terminates_partial"
   ],
   "note": "False for the empty delimiter (infinite loop): refuted; holds for every non-empty delimiter."
  },
  {
   "property": "C03",
   "status": "proved",
   "theorems": [
    "Cppnet.C03_decode_encode"
   ],
   "note": ""
  },
  {
   "property": "C04",
   "status": "proved",
   "theorems": [
    "Cppnet.C04_encode_safe",
    "Cppnet.C04_encode_bytes"
   ],
   "note": ""
  },
  {
   "property": "C05",
   "status": "partial",
   "theorems": [
    "Cppnet.C05_decode_partial",
    "Cppnet.C05_decodes_unique",
    "Cppnet.C05_rejected_partial",
    "Cppnet.C05_decode_rejects_malformed_refuted"
   ],
   "note": "Malformed escapes are accepted by the code (refuted with witnesses); proved for all well-formed input and for a lone trailing %."
  },
  {
   "property": "C06",
   "status": "proved",
   "theorems": [
    "Cppnet.C06_wildcard"
   ],
   "note": ""
  },
  {
   "property": "C07",
   "status": "proved",
   "theorems": [
    "Cppnet.C07_suffix"
   ],
   "note": ""
  },
  {
   "property": "C08",
   "status": "proved",
   "theorems": [
    "Cppnet.C08_search"
   ],
   "note": ""
  },
  {
   "property": "C09",
   "status": "proved",
   "theorems": [
    "Cppnet.C09_get_stored"
   ],
   "note": ""
  },
  {
   "property": "C10",
   "status": "partial",
   "theorems": [
    "Cppnet.C10_get_absent_refuted",
    "Cppnet.C10_get_exact_partial",
    "Cppnet.C10_get_absent_partial"
   ],
   "note": "C10_get_absent_refuted: C10 as stated is false: after `Set(\"hello\", \u2026)` alone, `Get(\"hel\")` returns that value and `Check(\"hel\")` is true, although \"hel\" was never stored. | C10_get_exact_partial: C10, exactly what `Get` returns for a non-empty key: the value of the least stored extension of the key, if there is a stored key that starts with it and that all such keys continue. | C10_get_absent_partial: C10, the case in which the property holds: if no stored key extends `k` (other than `k` itself), `Get` and `Check` answer exactly for `k`."
  },
  {
   "property": "C11",
   "status": "partial",
   "theorems": [
    "Cppnet.C11_ascii_safe_partial",
    "Cppnet.C11_non_ascii_refuted",
    "Cppnet.C11_non_ascii_inner_refuted",
    "Cppnet.C11_fork_refuted"
   ],
   "note": "C11_ascii_safe_partial: C11, the part that holds: with ASCII keys no operation faults or diverges (the callback's own faults aside). | C11_non_ascii_refuted: C11 as stated is false: a key whose first byte is \u2265 0x80 makes `Set` and `Get` (on any trie) and `Search` (on any trie without a value at the root) index out of bounds. | C11_non_ascii_inner_refuted: C11: a non-ASCII byte further inside the key also reaches the out-of-bounds access. | C11_fork_refuted: C11 as stated is false also of keys that start with an ASCII byte, as every route does: a key with a byte \u2265 0x80 inside is stored, and then the insertion of the part before that byte writes out of bounds."
  },
  {
   "property": "C12",
   "status": "proved",
   "theorems": [
    "Cppnet.C12_order_independent",
    "Cppnet.C12_reset"
   ],
   "note": ""
  },
  {
   "property": "C13",
   "status": "proved",
   "theorems": [
    "Cppnet.C13_methods",
    "Cppnet.C13_versions",
    "Cppnet.C13_back",
    "Cppnet.C13_statuses"
   ],
   "note": ""
  },
  {
   "property": "C14",
   "status": "proved",
   "theorems": [
    "Cppnet.C14_content_types",
    "Cppnet.C14_set_get",
    "Cppnet.C14_custom",
    "Cppnet.C14_default"
   ],
   "note": ""
  },
  {
   "property": "C15",
   "status": "proved",
   "theorems": [
    "Cppnet.C15_round_trip"
   ],
   "note": ""
  },
  {
   "property": "C16",
   "status": "proved",
   "theorems": [
    "Cppnet.C16_header_parse",
    "Cppnet.C16_header_parse_empty"
   ],
   "note": ""
  },
  {
   "property": "C17",
   "status": "partial",
   "theorems": [
    "Cppnet.C17_blank_value_refuted",
    "Cppnet.C17_others_partial"
   ],
   "note": "C17_blank_value_refuted: C17 is false for every name and every number of spaces: a line with a blank value is stored with the value `:` followed by those spaces, never the empty value. | C17_others_partial: C17, what holds: lines with a blank value, anywhere in the text, do no other harm: Parse succeeds, every name that has no blank-valued line gets the value C16 says, and every name that has a line is there (never lost), a blank-valued last line with a `:` before the spaces."
  },
  {
   "property": "C18",
   "status": "partial",
   "theorems": [
    "Cppnet.C18_content_length",
    "Cppnet.C18_announced_partial",
    "Cppnet.C18_announced_refuted",
    "Cppnet.C18_announced_resp_partial",
    "Cppnet.C18_announced_resp_refuted"
   ],
   "note": "C18_announced_partial: C18, requests: Build announces the exact body length for bodies below 2 GiB \u2026 | C18_announced_refuted: \u2026 and a wrong one for every larger body (the size is narrowed to `int`), so C18 is false. | C18_announced_resp_partial: C18, responses: Build announces the exact body length for bodies below 2 GiB \u2026 | C18_announced_resp_refuted: \u2026 and a wrong one for every larger body."
  },
  {
   "property": "C19",
   "status": "proved",
   "theorems": [
    "Cppnet.C19_content_length_total"
   ],
   "note": ""
  },
  {
   "property": "C20",
   "status": "proved",
   "theorems": [
    "Cppnet.C20_cookie",
    "Cppnet.C20_cookie_absent"
   ],
   "note": ""
  },
  {
   "property": "C21",
   "status": "partial",
   "theorems": [
    "Cppnet.C21_route_parse_partial",
    "Cppnet.C21_route_parse_empty",
    "Cppnet.C21_route_parse_huge_refuted"
   ],
   "note": "C21_route_parse_partial: C21 for targets below 2 GiB: parsing succeeds; the path is the text before the first `?`; without a `?` the parameters stay as they were; otherwise every `&`-separated item stores the decoded text after its first `=` under the text before it, the last item of a name wins, other names keep their old value. Missing from the full property: longer targets (see the refutation). | C21_route_parse_huge_refuted: C21 is false for huge targets: a `?` at position 2^31 (2 GiB) does not fit the `int` it is stored in, and `Parse` throws; one position earlier the signed addition overflows."
  },
  {
   "property": "C22",
   "status": "proved",
   "theorems": [
    "Cppnet.C22_round_trip"
   ],
   "note": ""
  },
  {
   "property": "C23",
   "status": "proved",
   "theorems": [
    "Cppnet.C23_round_trip"
   ],
   "note": ""
  },
  {
   "property": "C24",
   "status": "proved",
   "theorems": [
    "Cppnet.C24_request_line"
   ],
   "note": ""
  },
  {
   "property": "C25",
   "status": "partial",
   "theorems": [
    "Cppnet.C25_header_injection_refuted",
    "Cppnet.C25_no_injection_partial",
    "Cppnet.C25_no_injection_resp_partial",
    "Cppnet.C25_redirect_injection_refuted"
   ],
   "note": "C25_header_injection_refuted: C25 is false: a value with a CRLF in it adds a header the caller did not set (here seen by the library's own parser). | C25_no_injection_partial: C25, the part that holds: if no name has a colon or CR and no value a CR (and no value is empty or starts with a space), the header block is exactly one line per header: the caller's and the generated ones, each once. | C25_no_injection_resp_partial: C25, responses, the part that holds: one line per header, nothing else. | C25_redirect_injection_refuted: C25 is false for responses too: a redirect target with a CRLF adds a header, and a target with CRLFCRLF ends the header block and replaces the body."
  },
  {
   "property": "C26",
   "status": "partial",
   "theorems": [
    "Cppnet.C26_total_partial",
    "Cppnet.C26_total_refuted"
   ],
   "note": "C26_total_partial: C26 for texts whose first line is below 2 GiB: Parse returns success or a logic error, whatever the text and the previous state. Missing: longer first lines (see the refutation). | C26_total_refuted: C26 is false without the bound: a request line with a `?` at position 2^31 of its target makes Parse throw."
  },
  {
   "property": "C27",
   "status": "partial",
   "theorems": [
    "Cppnet.C27_accepts_partial",
    "Cppnet.C27_rejects_unterminated",
    "Cppnet.C27_stored_partial",
    "Cppnet.C27_accepts_malformed_refuted"
   ],
   "note": "C27_accepts_partial: C27, what is accepted (first line below 2 GiB): exactly the texts that have a CRLFCRLF and whose first line is a known method, a non-empty target and a known version, separated by single spaces. The full property also demands a colon in every header line; the code does not check that. | C27_stored_partial: C27, what is stored when a request is accepted: the body, and the header lines before the first one without a colon. | C27_accepts_malformed_refuted: C27 is false: a request with a header line that has no colon is accepted, and the headers after that line are silently dropped."
  },
  {
   "property": "C28",
   "status": "proved",
   "theorems": [
    "Cppnet.C28_round_trip"
   ],
   "note": ""
  },
  {
   "property": "C29",
   "status": "partial",
   "theorems": [
    "Cppnet.C29_total_refuted",
    "Cppnet.C29_total_partial"
   ],
   "note": "C29_total_refuted: C29 is false: the two-byte text CRLF makes Parse throw `std::out_of_range`. | C29_total_partial: C29 for every other text: Parse returns success or a logic error, from any previous state."
  },
  {
   "property": "C30",
   "status": "proved",
   "theorems": [
    "Cppnet.C30_request_delimited",
    "Cppnet.C30_response_delimited"
   ],
   "note": ""
  },
  {
   "property": "C31",
   "status": "proved",
   "theorems": [
    "Cppnet.C31_helpers",
    "Cppnet.C31_redirect",
    "Cppnet.C31_success",
    "Cppnet.C31_build_fails"
   ],
   "note": ""
  },
  {
   "property": "C32",
   "status": "partial",
   "theorems": [
    "Cppnet.C32_stale_request_refuted",
    "Cppnet.C32_after_clear_partial",
    "Cppnet.C32_stale_response_refuted",
    "Cppnet.C32_resp_after_clear_partial"
   ],
   "note": "C32_stale_request_refuted: C32 is false: parsing into a used object keeps its old headers and parameters. | C32_after_clear_partial: C32, the part that holds: after Clear, an accepted text gives exactly the object a fresh one would hold, and the same texts are accepted. | C32_stale_response_refuted: C32 is false for responses: the headers of an earlier response stay (the client relies on the caller to pass a fresh object). | C32_resp_after_clear_partial: C32, the part that holds: after Clear, an accepted text gives exactly the object a fresh one would hold, and the same texts are accepted."
  },
  {
   "property": "C33",
   "status": "partial",
   "theorems": [
    "Cppnet.C33_read_until_partial",
    "Cppnet.C33_stream_end_partial",
    "Cppnet.C33_delimiter_first_refuted"
   ],
   "note": "C33_read_until_partial: C33, when the delimiter arrives: `ReadUntil` stores the shortest prefix that ends with the delimiter, returns its length (below 2 GiB) and leaves the rest of the stream unread. Missing: streams in which the delimiter's last byte arrives too early (`EarlyEnd`), for which it throws. | C33_stream_end_partial: C33, when the stream ends first: everything received is in the buffer, the result is that of the failing receive. | C33_delimiter_first_refuted: C33 is false in general: a stream that starts with the delimiter makes `ReadUntil` throw, although it contains the delimiter."
  },
  {
   "property": "C34",
   "status": "partial",
   "theorems": [
    "Cppnet.C34_line_feed_throws_refuted",
    "Cppnet.C34_throws_iff_partial"
   ],
   "note": "C34_line_feed_throws_refuted: C34 is false: one line feed is enough to make `ReadUntil(buf, CRLFCRLF)` throw. | C34_throws_iff_partial: C34, exactly: `ReadUntil` throws iff the last byte of the delimiter is NUL or arrives while the text is still shorter than the delimiter; it never fails in any other way."
  },
  {
   "property": "C35",
   "status": "partial",
   "theorems": [
    "Cppnet.C35_read_partial",
    "Cppnet.C35_peek_partial",
    "Cppnet.C35_nul_truncates_refuted",
    "Cppnet.C35_nul_general_refuted"
   ],
   "note": "C35_read_partial: C35, `Read`: it returns `n \u2265 0`, the number of bytes taken off the stream (for `complete`: all `len` of them if the stream has that many and `len` is below the kernel's limit; otherwise at least one); `buf` holds those bytes exactly when none of them is NUL. Missing: bytes with a NUL (refuted). | C35_peek_partial: C35, `ReadPeek` leaves the stream untouched and shows a prefix of it (up to its first NUL). | C35_nul_truncates_refuted: C35 is false: of the bytes `a NUL b` only `a` arrives in the buffer, while the result says 3. | C35_nul_general_refuted: C35 is false for zero bytes anywhere: the buffer is never what was received."
  },
  {
   "property": "C36",
   "status": "partial",
   "theorems": [
    "Cppnet.C36_no_io",
    "Cppnet.C36_after_close",
    "Cppnet.C36_before_init",
    "Cppnet.C36_close_once",
    "Cppnet.C36_reinit_leaks_refuted",
    "Cppnet.C36_failed_init_refuted",
    "Cppnet.C36_balanced_partial"
   ],
   "note": "C36_reinit_leaks_refuted: C36 is false on one point: initialising twice loses the first descriptor, so there is not one `close` for every successful `Init`. | C36_failed_init_refuted: C36 is false on another: a failed `Init` on an open object loses its descriptor but keeps it \"initialised\", so later calls do reach the system, with descriptor -1. | C36_balanced_partial: C36: if no initialisation happens on an open object, every created descriptor but the current one has been closed: #close + (1 if still open) = #created."
  },
  {
   "property": "C37",
   "status": "partial",
   "theorems": [
    "Cppnet.C37_request_received_partial",
    "Cppnet.C37_nul_body_refuted",
    "Cppnet.C37_exact_partial",
    "Cppnet.C37_huge_body_refuted"
   ],
   "note": "C37_request_received_partial: C37: what a client's `Send` writes for a request with wire-safe headers, route and NUL-free body is served as a request with the same method, version, path, parameters, body and headers (Host added if missing), and bytes after it stay in the stream. Missing: bodies with NUL bytes and bodies above the kernel's limit for one receive (both refuted below), routes that are not wire-safe (C70). | C37_nul_body_refuted: C37 is false for every body with a NUL byte: the handlers see a shorter body. | C37_exact_partial: C37, for bodies of any size: a wire-safe request is served with its method, version, path, parameters and headers, and it is served with its body exactly if the body holds no NUL and is not longer than 2147479552 bytes, the kernel's limit for one receive. Missing: the other bodies, see the refutations. | C37_huge_body_refuted: C37 is false for every body above the kernel's limit for one receive: the handlers see another body, and the bytes of the body that are left are taken for the next request."
  },
  {
   "property": "C38",
   "status": "partial",
   "theorems": [
    "Cppnet.C38_response_received_partial",
    "Cppnet.C38_nul_body_refuted",
    "Cppnet.C38_exact_partial",
    "Cppnet.C38_huge_body_refuted"
   ],
   "note": "C38_response_received_partial: C38: when the handlers leave a response with a status and wire-safe headers and a NUL-free body, the server writes one text (after whatever the handlers wrote themselves), and a client whose stream starts with it gets 0, that status, version and body, every header that was set, and leaves later bytes unread. The response object passed in keeps headers of its own that the server did not send (`p.header`, none if it is fresh). | C38_nul_body_refuted: C38 is false for every body with a NUL byte: `Send` returns 0 with a shorter body. | C38_exact_partial: C38, for bodies of any size: `Send` returns 0 and gives the body that the server sent exactly if the body holds no NUL and is not longer than the kernel's limit for one receive. Missing: the other bodies, see the refutations. | C38_huge_body_refuted: C38 is false for every body of 2 to 4 GiB: `Send` returns 0 with an empty body, and the whole body is left in the connection, where the next response is expected."
  },
  {
   "property": "C39",
   "status": "partial",
   "theorems": [
    "Cppnet.C39_write_failure_refuted",
    "Cppnet.C39_success_partial"
   ],
   "note": "C39_write_failure_refuted: C39 is false: when the request cannot be written, `Send` returns 0 and leaves the response object untouched. | C39_success_partial: C39, what holds: if the request was written and `Send` returns 0, then the stream held a complete header block, which was parsed, and all of the announced bytes; the stream afterwards starts right behind them. (The body stored is the C string in those bytes, see C35.)"
  },
  {
   "property": "C40",
   "status": "partial",
   "theorems": [
    "Cppnet.C40_routing_partial",
    "Cppnet.C40_exact_partial",
    "Cppnet.C40_group_overwrites_refuted",
    "Cppnet.C40_prefix_hijacked_refuted",
    "Cppnet.C40_group_middleware_escapes_refuted",
    "Cppnet.C40_api_partial"
   ],
   "note": "C40_routing_partial: C40, what holds: if no registration collides with an earlier one (`SeparateAll`), all paths are ASCII and so is the request path, the server calls exactly the handlers the property demands, in that order. Missing: colliding registrations, for which the property is false (see below), and non-ASCII bytes (C11, C46). | C40_exact_partial: What the code does for arbitrary (ASCII) registrations: the table it builds is the one of `TableStep`, which looks for the path without the group's prefix, finds longer paths too, and replaces instead of appending. | C40_group_overwrites_refuted: C40 is false: of two handlers registered on the same path of a group only the second one is called. | C40_prefix_hijacked_refuted: C40 is false: a handler registered on a prefix of an earlier path is called for the longer path and not for its own. | C40_group_middleware_escapes_refuted: C40 is false: once the server has middleware, the middleware of a group runs for every request. | C40_api_partial: C40 for the calls a user makes: whatever groups are nested and whichever of `RegisterHandler`, `Use`, `StaticDir` and `StaticFile` are called, with one callback or several, the server calls exactly the handlers the calls are meant to register. Missing: GET and POST (C41), collisions, non-ASCII bytes."
  },
  {
   "property": "C41",
   "status": "partial",
   "theorems": [
    "Cppnet.C41_method_dropped_refuted",
    "Cppnet.C41_lists_refuted",
    "Cppnet.C41_delete_reaches_get_refuted",
    "Cppnet.C41_explicit_filter_partial",
    "Cppnet.C41_static_partial"
   ],
   "note": "C41_method_dropped_refuted: C41 is false: GET and POST do the same thing, namely register for every method. | C41_lists_refuted: The same for lists of callbacks. | C41_delete_reaches_get_refuted: \u2026 so a DELETE request reaches a handler registered with GET. | C41_explicit_filter_partial: C41, the part that holds: a handler that carries a method filter among its filters (as the static handlers do, and as callers can pass explicitly) is skipped for a request with another method. | C41_static_partial: The static handlers are registered with the filter."
  },
  {
   "property": "C42",
   "status": "partial",
   "theorems": [
    "Cppnet.C42_abort_ignored_refuted",
    "Cppnet.C42_server_stop_partial",
    "Cppnet.C42_flag_partial"
   ],
   "note": "C42_abort_ignored_refuted: C42 is false: whatever the first handler does to the context's continue flag, the second one runs on the context it leaves. | C42_server_stop_partial: C42, what does stop the chain: a handler that stops the server. | C42_flag_partial: C42, what `Next` and `Abort` do: after any calls of the two, `is_continue()` tells which one came last (before the first call: as if `Abort` had)."
  },
  {
   "property": "C43",
   "status": "proved",
   "theorems": [
    "Cppnet.C43_confined",
    "Cppnet.C43_served_inside",
    "Cppnet.C43_empty_dir_escapes"
   ],
   "note": ""
  },
  {
   "property": "C44",
   "status": "partial",
   "theorems": [
    "Cppnet.C44_static_file",
    "Cppnet.C44_static_dir_partial",
    "Cppnet.C44_static_dir_custom_refuted"
   ],
   "note": "C44_static_dir_partial: C44 for StaticDir, what holds: for a suffix without a custom type the answer is 200 with exactly the file's bytes and the content type. `reqPath = pre ++ mount ++ rest` at the first occurrence of `mount`. | C44_static_dir_custom_refuted: C44 is false for StaticDir: a file whose suffix has a registered custom type is sent with an empty Content-Type (StaticFile sends the registered one)."
  },
  {
   "property": "C45",
   "status": "partial",
   "theorems": [
    "Cppnet.C45_line_feed_refuted",
    "Cppnet.C45_bad_request_partial",
    "Cppnet.C45_answered_partial",
    "Cppnet.C45_incomplete"
   ],
   "note": "C45_line_feed_refuted: C45 is false: a complete request whose first byte is a line feed, such as this one, cannot be parsed, but instead of being answered with 400 it makes `HandleRead` throw. | C45_bad_request_partial: C45, a request that cannot be parsed: one 400 answer with the parser's message, then the connection is closed; no handler runs. Missing: requests with a line feed in the first three bytes, or of 2 GiB and more. | C45_answered_partial: C45, a request that can be parsed and whose body is complete: the server writes exactly one response after whatever the handlers wrote themselves. If the handlers set no status it is the 404 page; otherwise it is the handlers' response. (Read back with the library's parser, for headers that survive the wire; in any case it is the text `Build` gives.) Missing: requests with a line feed in the first three bytes, or of 2 GiB and more."
  },
  {
   "property": "C46",
   "status": "partial",
   "theorems": [
    "Cppnet.C46_total_partial",
    "Cppnet.C46_line_feed_refuted",
    "Cppnet.C46_non_ascii_refuted",
    "Cppnet.C46_long_name_refuted"
   ],
   "note": "C46_total_partial: C46, what holds: if no line feed is among the first three bytes, the first line is ASCII, the whole input is below 2 GiB, and no handler or filter fails, then `HandleRead` finishes normally, whatever the client sends. Missing: the inputs refuted below. | C46_line_feed_refuted: C46 is false: one line feed from any client makes `HandleRead` throw (and nothing above it catches). | C46_non_ascii_refuted: C46 is false: a byte above 127 in the path indexes the trie's child array out of bounds. | C46_long_name_refuted: C46 is false: a URL below a static directory with a component that is too long makes `HandleRead` throw `filesystem_error` (`stat` fails with ENAMETOOLONG)."
  },
  {
   "property": "C47",
   "status": "partial",
   "theorems": [
    "Cppnet.C47_tls_partial",
    "Cppnet.C47_truncated_refuted",
    "Cppnet.C47_no_body_partial"
   ],
   "note": "C47_tls_partial: C47 over TLS, where it holds: a request whose body is not complete when the stream ends is not served; nothing is answered and the connection is closed. | C47_truncated_refuted: C47 is false: if some but not all of the announced bytes arrive before the peer closes (or the receive times out), the handlers run on the truncated body, and the answer is the same as if it were complete. | C47_no_body_partial: C47, what holds: if none of the announced bytes arrives, no handler runs and the connection is closed without an answer."
  },
  {
   "property": "C48",
   "status": "partial",
   "theorems": [
    "Cppnet.C48_once_partial",
    "Cppnet.C48_single_worker_partial",
    "Cppnet.C48_start_order_refuted"
   ],
   "note": "C48_once_partial: C48, every number of workers: the tasks leave the queue in the order in which they entered it (what was popped is a prefix of what was accepted, the rest is still queued), and every popped task is either finished or in the hands of exactly one worker; so the executed tasks, with their multiplicities, are among the accepted ones: nothing runs twice and nothing runs that was not accepted. | C48_single_worker_partial: C48 with one worker (as the file logger uses it): the tasks are called in the order in which they were accepted. | C48_start_order_refuted: C48 is false about the order in which tasks start: with two workers the second task can start first (a worker calls its task after it has released the mutex)."
  },
  {
   "property": "C49",
   "status": "proved",
   "theorems": [
    "Cppnet.C49_no_lost_wakeup",
    "Cppnet.C49_awake",
    "Cppnet.C49_progress"
   ],
   "note": ""
  },
  {
   "property": "C50",
   "status": "partial",
   "theorems": [
    "Cppnet.C50_quiescent_partial",
    "Cppnet.C50_exited_partial",
    "Cppnet.C50_second_stop_refuted"
   ],
   "note": "C50_quiescent_partial: C50, for a pool controlled by one thread: when `Stop` returns no worker has a task, every popped task has been run to its end, and in every continuation (whatever any thread does, resizing included) no task is popped, started or finished any more. (It is false for two threads that call `Stop`, see below.) | C50_exited_partial: C50, for a pool that one thread initialises, stops and never resizes: when `Stop` returns every worker thread has returned. | C50_second_stop_refuted: C50 is false if two threads call `Stop`: the second call returns at once, while a task is running."
  },
  {
   "property": "C51",
   "status": "partial",
   "theorems": [
    "Cppnet.C51_dropped_refuted",
    "Cppnet.C51_accounted_partial"
   ],
   "note": "C51_dropped_refuted: C51 is false: a task that `AddTask` accepted is not run if `Stop` comes first, and never will be. | C51_accounted_partial: C51, what holds (one controlling thread): when `Stop` returns, the accepted tasks are the finished ones and those still in the queue; in particular all of them if the queue is empty."
  },
  {
   "property": "C52",
   "status": "partial",
   "theorems": [
    "Cppnet.C52_lost_stop_refuted",
    "Cppnet.C52_returns_partial"
   ],
   "note": "C52_lost_stop_refuted: C52 is false: the notification of `Stop` can fall between a worker's test of the flag and its going to sleep (the flag is not written under the mutex). The worker then sleeps and, whatever any thread does afterwards, `Stop` does not return unless the operating system wakes the worker for no reason. | C52_returns_partial: C52, what holds (one controlling thread): if no worker is between its test and its going to sleep when `Stop` notifies, then however the threads are scheduled afterwards, as long as `Stop` has not returned and no task has thrown it can still return, by steps of the calls and tasks already begun alone."
  },
  {
   "property": "C53",
   "status": "partial",
   "theorems": [
    "Cppnet.C53_refuses_refuted",
    "Cppnet.C53_destroy_refuted",
    "Cppnet.C53_same_partial",
    "Cppnet.C53_always_refuses_partial",
    "Cppnet.C53_size_partial"
   ],
   "note": "C53_refuses_refuted: C53 is false: after `Resize` has changed the size, `AddTask` refuses every task. | C53_destroy_refuted: C53 is false: destroying the pool after `Resize` has changed the size terminates the program. | C53_same_partial: C53, what holds: `Resize` to the current size or to 0 leaves the pool as it was. (For other sizes see `C53_always_refuses_partial`.) | C53_always_refuses_partial: C53, how far the failure goes: after any `Resize` that changed the size, every later `AddTask`, by whichever thread, returns -2, and no thread is ever able to make the pool accept tasks again. | C53_size_partial: C53, what holds of the size (one controlling thread): when `Resize(n)` with `n \u2260 0`, or `Init(n)`, returns, the pool has `n` threads, and takes itself to have so many. (Whether they still run is another matter, see `C53_always_refuses_partial`.)"
  },
  {
   "property": "C54",
   "status": "partial",
   "theorems": [
    "Cppnet.C54_gap_refuted",
    "Cppnet.C54_numbers_partial"
   ],
   "note": "C54_gap_refuted: C54 is false as stated: the numbers can be 0 and 0 while an accepted task is neither queued nor finished (a worker has taken it off the queue and not yet counted itself as busy). | C54_numbers_partial: C54, what holds: at the moment the numbers are returned, the task number is the length of the queue and the busy number is that of the workers that have begun a task's bookkeeping and not yet ended it, so at most the number of workers. (A worker between popping a task and counting itself is not included.)"
  },
  {
   "property": "C55",
   "status": "partial",
   "theorems": [
    "Cppnet.C55_complete_partial",
    "Cppnet.C55_count_refuted"
   ],
   "note": "C55_complete_partial: C55, if the number of buffers is at least one and is set before `Init`: when `Stop` or the destructor has returned, and no file operation failed, the file holds its previous content followed by every logged line exactly once. (It is false if the number of buffers is changed later, see below.) | C55_count_refuted: C55 is false if `set_buf_num` is called after `Init`: `Stop` visits only that many buffers and throws away the others, here the second of two lines."
  },
  {
   "property": "C56",
   "status": "partial",
   "theorems": [
    "Cppnet.C56_prefix_partial",
    "Cppnet.C56_no_drop_partial",
    "Cppnet.C56_order_refuted"
   ],
   "note": "C56_prefix_partial: C56 up to the first `Stop`, if no file operation fails: at every moment the file holds its previous content followed by the first so many of the lines logged so far, in order. | C56_no_drop_partial: C56 for the first `Stop` (or the destructor), if no file operation fails and `Stop` finds no flush left over (every flush given to the background thread was performed by it): the file holds its previous content followed by all logged lines in order. (Without that it is false, see below.) | C56_order_refuted: C56 is false: with two buffers, the first is flushed and used again while the second waits for the background thread; `Stop` drops the waiting flush and writes the buffers in the order of the list, so that the third line comes before the second."
  },
  {
   "property": "C57",
   "status": "partial",
   "theorems": [
    "Cppnet.C57_kept_partial",
    "Cppnet.C57_cut_refuted",
    "Cppnet.C57_stop_refuted"
   ],
   "note": "C57_kept_partial: C57: appends of the background thread that fail (the file cannot be opened) lose nothing: when a `Stop` whose own appends succeed, or the destructor, has returned, the file holds its previous content followed by every line logged since the logger was made, each exactly once. (Missing: writes that the operating system cuts short, see `C57_cut_refuted`; failures in `Stop` itself, see `C57_stop_refuted`.) | C57_cut_refuted: C57 is false of an append that the operating system cuts short (disk full): it is taken for a success, the buffer is cleared, and the rest of the line never reaches the file although every later append succeeds. | C57_stop_refuted: C57 is false of an append that fails in `Stop`: the buffers are thrown away, and a second `Stop` writes nothing."
  },
  {
   "property": "C58",
   "status": "proved",
   "theorems": [
    "Cppnet.C58_std",
    "Cppnet.C58_multi",
    "Cppnet.C58_init",
    "Cppnet.C58_file"
   ],
   "note": ""
  },
  {
   "property": "C59",
   "status": "partial",
   "theorems": [
    "Cppnet.C59_foreign_refuted",
    "Cppnet.C59_locked_refuted",
    "Cppnet.C59_unwritable_refuted",
    "Cppnet.C59_start_partial",
    "Cppnet.C59_usable_partial"
   ],
   "note": "C59_foreign_refuted: C59 is false in another way: `Init` of a directory, or of another user's file that its owner may write, returns 0 as if the logger worked; every append fails, and the lines are lost. | C59_locked_refuted: C59 is false, with the file: `Init` of a file that its owner may not write returns 0; the logger stays uninitialised. | C59_unwritable_refuted: C59 is false: if the file exists but its owner may not write it, `Init` returns 0 without having initialised anything; every message after that is thrown away. | C59_start_partial: C59, if `File::CanWrite` says yes: `Init` returns an error code only when `File::Create` did, with the same code, which is not 0; otherwise it goes on to start the background thread. | C59_usable_partial: C59, continued: in every execution, once `Init` has reached its end (and until `Stop` is called) the logger is usable between two calls: a message of sufficient level is taken."
  },
  {
   "property": "C60",
   "status": "partial",
   "theorems": [
    "Cppnet.C60_delivered_partial",
    "Cppnet.C60_all_partial",
    "Cppnet.C60_lost_refuted"
   ],
   "note": "C60_delivered_partial: C60, exactly: the read callbacks before the leave callback deliver the bytes the peer had sent by the last wait before it closed, all of them and in order; what was sent after that wait is never delivered. | C60_all_partial: In particular: if the server waits between the last data and the close, everything is delivered. | C60_lost_refuted: C60 is false: a peer that sends and closes before the server looks again is reported as gone; its data is never offered."
  },
  {
   "property": "C61",
   "status": "partial",
   "theorems": [
    "Cppnet.C61_closed_once_partial",
    "Cppnet.C61_http_server_partial",
    "Cppnet.C61_stop_leaks_refuted"
   ],
   "note": "C61_closed_once_partial: C61, while the server runs: whatever `epoll_wait` reports in whatever order and however `accept` and `epoll_ctl` fail, a server in I/O multiplexing mode whose callback is polite never closes a descriptor that is not open, ends watching and closes a connection right after its leave or error callback, and whenever it waits, the only descriptors open besides those of the rest of the process are its epoll descriptor and the watched ones (so nothing is leaked); each number is closed as often as it was opened, except that the open ones are still to be closed. Missing: connections that are still open when the server is stopped (below). | C61_http_server_partial: The callback of `HttpServer` is polite, whatever it is answered. | C61_stop_leaks_refuted: C61 is false when the server ends: stopping, leaving the loop and destroying the server (`Stop`, `Clean`) closes no connection, so one that is still there is leaked."
  },
  {
   "property": "C62",
   "status": "partial",
   "theorems": [
    "Cppnet.C62_callback_closes_partial",
    "Cppnet.C62_every_connection_has_a_task_partial",
    "Cppnet.C62_never_closed_refuted",
    "Cppnet.C62_http_server_refuted"
   ],
   "note": "C62_callback_closes_partial: C62, what holds: however often the connection becomes readable, its task calls the callback once for the accept, once per readable moment, and once, last, for the leave; a callback that closes the connection when it is told of the leave closes it exactly then and only once. The server itself closes nothing (below). | C62_every_connection_has_a_task_partial: Every connection accepted by the multi-thread mode gets a task at once, except one that is accepted after `Stop` (the wake-up connection). | C62_never_closed_refuted: C62 is false: whatever the connection, however often it becomes readable, the task ends after the leave callback and no descriptor is closed, unless the callback does it. | C62_http_server_refuted: The callback of `HttpServer` does not: on a connection whose peer leaves after any number of good requests nothing is closed; and when it drops a connection (a bad request), the task goes on using the number it has closed."
  },
  {
   "property": "C63",
   "status": "partial",
   "theorems": [
    "Cppnet.C63_failed_init_partial",
    "Cppnet.C63_bind_refuted"
   ],
   "note": "C63_failed_init_partial: C63, what holds: after an `Init` that failed, in whatever mode and at whatever point, and `Clean`, exactly the descriptors are open that were open before, except that the socket stays open when `Init` failed after `socket` and before `listen`. Before `Clean`, the epoll descriptor is open too if `epoll_ctl` failed. | C63_bind_refuted: C63 is false: `Init` fails because the port is in use, and the socket is left open, also by `Clean`."
  },
  {
   "property": "C64",
   "status": "partial",
   "theorems": [
    "Cppnet.C64_registered_partial",
    "Cppnet.C64_before_init_refuted"
   ],
   "note": "C64_registered_partial: C64, what holds: whatever is called after `Register` except `Init`, and whatever happens in the loops, every event is delivered to the registered callback (as long as the callback itself does not register another). | C64_before_init_refuted: C64 is false: a callback registered before `Init` is replaced by one that does nothing."
  },
  {
   "property": "C65",
   "status": "partial",
   "theorems": [
    "Cppnet.C65_round_trip",
    "Cppnet.C65_invalid_accepted_refuted",
    "Cppnet.C65_init_never_fails_refuted",
    "Cppnet.C65_domain"
   ],
   "note": "C65_invalid_accepted_refuted: C65 is false in its last part: `Init` reports success for text that is no address, and the object then holds 255.255.255.255. | C65_init_never_fails_refuted: C65, more generally: `Init` never fails, for any text."
  },
  {
   "property": "C66",
   "status": "proved",
   "theorems": [
    "Cppnet.C66_complete"
   ],
   "note": ""
  },
  {
   "property": "C67",
   "status": "partial",
   "theorems": [
    "Cppnet.C67_typed_partial",
    "Cppnet.C67_any_refuted"
   ],
   "note": "C67_typed_partial: C67, for every type but `std::any`: after any calls, `Get<T>(key)` returns the value of the last `Set` for this key if that was a `T`, given as a `T` or inside a `std::any`, and `T()` otherwise. | C67_any_refuted: C67 is false for `std::any`: what is set with `Set<std::any>` is not returned by `Get<std::any>`, whatever it is."
  },
  {
   "property": "C68",
   "status": "partial",
   "theorems": [
    "Cppnet.C68_first_cookie_partial",
    "Cppnet.C68_cookies_merged_refuted"
   ],
   "note": "C68_first_cookie_partial: C68, the part that holds: the first cookie is written as `key=value` and its attributes, separated by `; `, under Set-Cookie; nothing else changes. | C68_cookies_merged_refuted: C68 is false: whatever cookies are set one after the other, the header block has one Set-Cookie line, in which the second cookie follows the first after `; ` as if it were an attribute."
  },
  {
   "property": "C69",
   "status": "partial",
   "theorems": [
    "Cppnet.C69_unterminated_refuted",
    "Cppnet.C69_unterminated_general_refuted",
    "Cppnet.C69_no_line_partial"
   ],
   "note": "C69_unterminated_refuted: C69 is false: a response whose header block is not terminated (the connection broke inside it) is accepted, and the text from its fourth byte on becomes the body. | C69_unterminated_general_refuted: C69 in general: every unterminated text with a good status line and header lines is accepted. | C69_no_line_partial: C69, the part that holds: a text without any CRLF is rejected and leaves the object unchanged."
  },
  {
   "property": "C70",
   "status": "partial",
   "theorems": [
    "Cppnet.C70_path_not_decoded_refuted",
    "Cppnet.C70_path_escaped_partial"
   ],
   "note": "C70_path_not_decoded_refuted: C70 is false: `ToString` escapes the path, `Parse` does not undo it. | C70_path_escaped_partial: C70, what holds: without parameters, a path without `?` comes back in its escaped form (hence as it was exactly when no byte needs escaping)."
  },
  {
   "property": "C71",
   "status": "partial",
   "theorems": [
    "Cppnet.C71_setters_after_close_refuted",
    "Cppnet.C71_setters_partial"
   ],
   "note": "C71_setters_after_close_refuted: C71 is false: the option setters and `SetNoBlock`/`SetBlock` do not check the status; on a closed object they act on the old descriptor number, which may by now belong to somebody else. | C71_setters_partial: C71, what holds: setters never change the object and make no call but `fcntl`/`setsockopt` on the stored descriptor."
  },
  {
   "property": "C72",
   "status": "partial",
   "theorems": [
    "Cppnet.C72_ssl_peek_consumes_refuted",
    "Cppnet.C72_peek_partial"
   ],
   "note": "C72_ssl_peek_consumes_refuted: C72 is false: `ReadPeek` on an SSL socket consumes what it shows (the flag is ignored). | C72_peek_partial: C72, what holds: the bytes shown are a prefix of the stream, and on a plain socket the stream is left untouched."
  },
  {
   "property": "C73",
   "status": "partial",
   "theorems": [
    "Cppnet.C73_close_order_refuted",
    "Cppnet.C73_goodbye_first_partial",
    "Cppnet.C73_once_partial"
   ],
   "note": "C73_close_order_refuted: C73 is false: `Close` always closes the descriptor first and then performs the TLS shutdown on the number that it has just closed. | C73_goodbye_first_partial: C73, what holds: after any use of the connection, `CloseSSL` followed by `Close` says goodbye on the open descriptor, frees the session, and closes the descriptor, each once and in this order. | C73_once_partial: Whatever is called in whatever order, the descriptor is closed at most once, the session is freed at most once, and it is not used after it was freed."
  },
  {
   "property": "C74",
   "status": "partial",
   "theorems": [
    "Cppnet.C74_temporary_group_refuted",
    "Cppnet.C74_live_group_partial"
   ],
   "note": "C74_temporary_group_refuted: C74 is false: after the group object is gone, a GET request for the registered path is undefined behaviour, for StaticFile and StaticDir, every prefix, path and file. | C74_live_group_partial: C74, what holds: while the group lives, the handlers are never undefined behaviour, on any request and any file system."
  },
  {
   "property": "C75",
   "status": "partial",
   "theorems": [
    "Cppnet.C75_short_write_refuted",
    "Cppnet.C75_failed_write_partial"
   ],
   "note": "C75_short_write_refuted: C75 is false: whenever the write takes only a part of the response (any count from 0 up to its length), the connection stays open, so the peer sees a truncated response followed by the next one. | C75_failed_write_partial: C75, what holds: if the write fails, the connection is closed; and so it is after every answer to a request that cannot be parsed (`C45_bad_request_partial`)."
  },
  {
   "property": "C76",
   "status": "partial",
   "theorems": [
    "Cppnet.C76_host_partial",
    "Cppnet.C76_wildcard_partial",
    "Cppnet.C76_regex_partial",
    "Cppnet.C76_no_host_refuted"
   ],
   "note": "C76_host_partial: C76, exactly what a host filter accepts: hosts matching the expression, or the wildcard, which is empty unless it was set. | C76_wildcard_partial: C76 for a wildcard filter: accepts exactly the hosts that match the wildcard. | C76_regex_partial: C76 for a filter with an expression, as far as it holds: exact for every request that names a host. | C76_no_host_refuted: C76 is false: a filter with only an expression lets every request without a Host header through, whatever the expression."
  },
  {
   "property": "C77",
   "status": "partial",
   "theorems": [
    "Cppnet.C77_relative_partial",
    "Cppnet.C77_no_prefix_partial",
    "Cppnet.C77_first_occurrence_refuted"
   ],
   "note": "C77_relative_partial: C77, what holds: if the first occurrence of the mount path (without the group's prefix) in the URL is the mount itself, the file asked for is the one of the same relative name: a file system holding only that file gives its content, and any other file is irrelevant. | C77_no_prefix_partial: The condition always holds on the server itself (no group prefix). | C77_first_occurrence_refuted: C77 is false: with `Group(\"/a\")` and `StaticDir(\"/a\", \"www\")`, the request `/a/a/x.svg` is not answered from `www/x.svg` but passed on (the file looked for is `www//a/x.svg`)."
  },
  {
   "property": "C78",
   "status": "proved",
   "theorems": [
    "Cppnet.C78_result"
   ],
   "note": ""
  },
  {
   "property": "C79",
   "status": "proved",
   "theorems": [
    "Cppnet.C79_stopped_for_good"
   ],
   "note": ""
  },
  {
   "property": "C80",
   "status": "proved",
   "theorems": [
    "Cppnet.C80_no_terminate"
   ],
   "note": ""
  },
  {
   "property": "C81",
   "status": "partial",
   "theorems": [
    "Cppnet.C81_std_partial",
    "Cppnet.C81_multi_refuted"
   ],
   "note": "C81_std_partial: C81, `StdLogger`: after `set_level(v)` exactly the messages of level at least `v` are printed. | C81_multi_refuted: C81 is false of a `MultiLogger`: `set_level` changes nothing, for any loggers and any level."
  },
  {
   "property": "C82",
   "status": "partial",
   "theorems": [
    "Cppnet.C82_hangs_refuted",
    "Cppnet.C82_returns_partial"
   ],
   "note": "C82_hangs_refuted: C82 is false: `Stop` (or the destructor) can hang for ever: if the background thread is just between its test and going to sleep when `Stop` notifies it, then in every continuation without a spurious wake-up `Stop` never returns. | C82_returns_partial: C82, what holds: if the background thread is not just between its test and going to sleep when `Stop` notifies it, then whatever happens afterwards (flushes that fail, a full disk, spurious wake-ups), as long as `Stop` (`d`: the destructor) has not returned it can return, by silent steps of the flush already begun and of `Stop` itself."
  },
  {
   "property": "C83",
   "status": "partial",
   "theorems": [
    "Cppnet.C83_once_partial",
    "Cppnet.C83_again_refuted"
   ],
   "note": "C83_once_partial: C83, a logger that is initialised once, whatever happens to it afterwards (messages, any number of calls of `Stop`, destruction) never terminates the program. | C83_again_refuted: C83 is false: a logger that was stopped and initialised again cannot be destroyed. The pool stays stopped, its new thread is never joined, and the destructor of the `std::thread` ends the program."
  },
  {
   "property": "C84",
   "status": "proved",
   "theorems": [
    "Cppnet.C84_whole_lines"
   ],
   "note": ""
  },
  {
   "property": "C85",
   "status": "partial",
   "theorems": [
    "Cppnet.C85_select_partial",
    "Cppnet.C85_kqueue_partial",
    "Cppnet.C85_next_event_partial",
    "Cppnet.C85_next_accept_partial",
    "Cppnet.C85_still_waiting_refuted"
   ],
   "note": "C85_select_partial: **C85**, what holds with `select`: the round in which a callback calls `Stop` is the last one, whatever would be reported later; the loop returns 0 then, and while nothing was stopped it does not return 0. | C85_kqueue_partial: **C85**, what holds with `kqueue`: the round in which a callback calls `Stop` is the last one, whatever would be reported later; the loop returns 0 then, and while nothing was stopped it does not return 0. | C85_next_event_partial: C85, what holds in the modes with epoll: once `Stop` has been called, the first wait that ends (with events, interrupted or failing) is the last one: the events it reported are handled and the loop returns, whatever would be reported later and whatever the callbacks do. | C85_next_accept_partial: In the multi-thread mode: once `Stop` has been called, the first `accept` that ends is the last one, and the loop returns after stopping the pool. | C85_still_waiting_refuted: C85 is false: in the I/O multiplexing mode `Stop` followed by `WakeUp` makes no system call, so a loop that waits goes on waiting until something else happens."
  },
  {
   "property": "C86",
   "status": "partial",
   "theorems": [
    "Cppnet.C86_always_level_refuted"
   ],
   "note": "C86_always_level_refuted: C86 is false: whatever is called in whatever order, the trigger type included, no descriptor is ever watched edge-triggered."
  },
  {
   "property": "C87",
   "status": "partial",
   "theorems": [
    "Cppnet.C87_tasks_partial",
    "Cppnet.C87_overlap_refuted"
   ],
   "note": "C87_tasks_partial: C87, what holds: in the mixed mode the tasks given to the pool are exactly, and in the order of, the reports that a connection is readable (and neither closed by its peer nor in error), whatever the callbacks do. | C87_overlap_refuted: C87 is false: the pool has not yet run the task of a readable connection when epoll reports it again, so a second task is queued for it; and then the peer leaves, and the descriptor is closed with both tasks queued."
  },
  {
   "property": "C88",
   "status": "partial",
   "theorems": [
    "Cppnet.C88_clean_partial",
    "Cppnet.C88_wake_up_partial",
    "Cppnet.C88_leaks_refuted"
   ],
   "note": "C88_clean_partial: C88, what holds (I/O multiplexing mode): after a successful `Init`, whatever is called and whatever happens, with the exception of another `Init`, once `Clean` has been called (at any moment, also while a loop waits) the listening socket and the epoll descriptor have been closed; `Clean` closes nothing else, and calling it again closes nothing. | C88_wake_up_partial: `WakeUp` leaves open exactly what was open, unless its `connect` fails. | C88_leaks_refuted: C88 is false: a second `Init` forgets the descriptors of the first, and `WakeUp` whose `connect` fails leaves its socket open; `Clean` does not close them."
  },
  {
   "property": "C89",
   "status": "partial",
   "theorems": [
    "Cppnet.C89_orderly_partial",
    "Cppnet.C89_null_refuted"
   ],
   "note": "C89_orderly_partial: C89, what holds: after a successful `Init` in one of the three modes, no sequence of calls that respects the mode crashes (no null pointer, no empty callback), whatever the system answers and the callbacks do. | C89_null_refuted: C89 is false: `AddSoc` before `Init`, `AddSoc` in the multi-thread mode, and `Stop` or `EventLoop` after the mode was changed go through a null pointer."
  },
  {
   "property": "C90",
   "status": "partial",
   "theorems": [
    "Cppnet.C90_after_close_partial",
    "Cppnet.C90_null_refuted"
   ],
   "note": "C90_after_close_partial: C90, what holds: after `Close`, in whatever state the object was and whatever is called later, reading and writing is refused without touching the session. | C90_null_refuted: C90 is false: after `CloseSSL` alone, reading or writing goes through the null session."
  },
  {
   "property": "C91",
   "status": "partial",
   "theorems": [
    "Cppnet.C91_handshake_partial",
    "Cppnet.C91_zero_refuted"
   ],
   "note": "C91_handshake_partial: C91, what holds: after a handshake that failed with a negative result there is no TLS socket and the session is freed; after a successful one there is an open TLS socket for the connection, with that session. | C91_zero_refuted: C91 is false: a handshake that ended with result 0 (the peer shut it down) counts as success."
  },
  {
   "property": "C92",
   "status": "partial",
   "theorems": [
    "Cppnet.C92_file_partial",
    "Cppnet.C92_key_refuted"
   ],
   "note": "C92_file_partial: C92, what holds: when `InitSvrFile` returns success, the new context uses the given certificate and the given key. | C92_key_refuted: C92 is false: `InitSvr` never gives the context a key, although it succeeds."
  },
  {
   "property": "C93",
   "status": "partial",
   "theorems": [
    "Cppnet.C93_contexts_partial",
    "Cppnet.C93_certificates_partial",
    "Cppnet.C93_leak_refuted"
   ],
   "note": "C93_contexts_partial: C93, what holds: in every life of a `SSLContext` that makes its own contexts, no context is freed more often than it was made, and if no call failed inside OpenSSL, each is freed exactly as often as it was made. | C93_certificates_partial: C93, the certificates that `InitSvr` reads: none is freed that was not made, and if no call failed inside OpenSSL all are freed. | C93_leak_refuted: C93 is false: a context whose certificate is refused is never freed; and `Init(ctx)` forgets the context that was there."
  },
  {
   "property": "C94",
   "status": "partial",
   "theorems": [
    "Cppnet.C94_owned_partial",
    "Cppnet.C94_leak_refuted"
   ],
   "note": "C94_owned_partial: C94, what holds: unless `SSL_new` fails, `CreateSSLSocket()` either opens no descriptor or returns a TLS socket that owns it. | C94_leak_refuted: C94 is false: when `SSL_new` fails the new descriptor is left open and nobody has it."
  },
  {
   "property": "C95",
   "status": "proved",
   "theorems": [
    "Cppnet.C95_own_session",
    "Cppnet.C95_served"
   ],
   "note": ""
  },
  {
   "property": "C96",
   "status": "partial",
   "theorems": [
    "Cppnet.C96_once_partial",
    "Cppnet.C96_freed_partial",
    "Cppnet.C96_leak_refuted"
   ],
   "note": "C96_once_partial: C96, what holds: no session is freed twice, and none is freed that was not made. | C96_freed_partial: C96, what holds: when a connection ends by leaving or by being dropped after a read, its session is freed and its descriptor closed. | C96_leak_refuted: C96 is false: the session of a connection that ends with an error is not freed, and is lost when the descriptor number is used again."
  },
  {
   "property": "C97",
   "status": "partial",
   "theorems": [
    "Cppnet.C97_written_partial",
    "Cppnet.C97_refused_partial",
    "Cppnet.C97_short_refuted",
    "Cppnet.C97_read_refuted",
    "Cppnet.C97_read_partial"
   ],
   "note": "C97_written_partial: C97, if the system takes all bytes it is given: when `Write` has returned success for a path that is a file or missing, then after any calls for any paths that do not rewrite or remove this file, `Read` gives the written data followed by all data appended since, every byte of it. | C97_refused_partial: C97, if the system refuses: nothing is changed and the caller is told. | C97_short_refuted: C97 is false: when the disk is full, `Write` returns success and the file does not hold the data. | C97_read_refuted: C97 is false: `Read` of a directory neither gives data nor reports an error, it throws where the buffers of the library throw, whatever is in the tree; and so does the `Read` of a file that the system fails to deliver. | C97_read_partial: C97, what holds for every `Read`: it returns an error exactly if there is nothing or the system refuses to open it, and then the caller's text is as it was; it returns success exactly with what the system delivered of the file; and it throws in no other case than those of `C97_read_refuted`."
  },
  {
   "property": "C98",
   "status": "partial",
   "theorems": [
    "Cppnet.C98_lines_partial",
    "Cppnet.C98_missing",
    "Cppnet.C98_overflow_refuted"
   ],
   "note": "C98_lines_partial: C98, for files of fewer than 2^31 lines that can be read: `LineCount` is the number of lines; it is 0 for a missing file. | C98_overflow_refuted: C98 is false for files with 2^31 lines or more: the counter overflows."
  },
  {
   "property": "C99",
   "status": "partial",
   "theorems": [
    "Cppnet.C99_created_partial",
    "Cppnet.C99_makes_partial",
    "Cppnet.C99_throws_refuted"
   ],
   "note": "C99_created_partial: C99, what holds: when `Create` returns success for something that is not a device, the file exists, everything that existed is as it was, and a file that did not exist is empty. | C99_makes_partial: C99, what holds: if the system grants everything and nothing but directories is on the way, `Create` succeeds, and makes the missing directories. | C99_throws_refuted: C99 is false: when something on the way is not a directory, `Create` throws instead of returning an error."
  },
  {
   "property": "C100",
   "status": "partial",
   "theorems": [
    "Cppnet.C100_removed_partial",
    "Cppnet.C100_throws_refuted"
   ],
   "note": "C100_removed_partial: C100, what holds: when `Remove` returns, it returns success, the path is no file, and everything else is as it was. | C100_throws_refuted: C100 is false: when the system refuses, `Remove` throws instead of returning an error; and a directory is not removed although success is returned."
  },
  {
   "property": "C101",
   "status": "partial",
   "theorems": [
    "Cppnet.C101_owner_partial",
    "Cppnet.C101_refuted",
    "Cppnet.C101_directory_refuted"
   ],
   "note": "C101_owner_partial: C101, what holds: for a file that exists, and a process for which the owner's permission bit decides whether it can be opened, `CanWrite` says whether `Append` will be granted. | C101_refuted: C101 is false: `CanWrite` says yes for a missing file in a missing directory, and whenever the owner may write, also to a process that may not. | C101_directory_refuted: C101 is false of every directory: `CanWrite` says yes (the owner may write in it), and neither `Write` nor `Append` can ever be granted, whatever the system answers."
  },
  {
   "property": "C102",
   "status": "partial",
   "theorems": [
    "Cppnet.C102_released_partial",
    "Cppnet.C102_leak_refuted"
   ],
   "note": "C102_released_partial: C102 and C103, when the calls are in order: the client does not crash, and by the end of its life every descriptor, TLS session and TLS context that it opened is released exactly once. | C102_leak_refuted: C102 is false: a second `Init` loses the first connection; a second `InitSSL` loses descriptor and session."
  },
  {
   "property": "C103",
   "status": "partial",
   "theorems": [
    "Cppnet.C103_null_refuted",
    "Cppnet.C103_no_crash_partial"
   ],
   "note": "C103_null_refuted: C103 is false: after `InitSSL` and then `Init`, `Close` and the destructor go through a null pointer. | C103_no_crash_partial: C103, when the calls are in order."
  },
  {
   "property": "C104",
   "status": "proved",
   "theorems": [
    "Cppnet.C104_port"
   ],
   "note": ""
  },
  {
   "property": "C105",
   "status": "proved",
   "theorems": [
    "Cppnet.C105_in_order"
   ],
   "note": ""
  },
  {
   "property": "C106",
   "status": "proved",
   "theorems": [
    "Cppnet.C106_conversation"
   ],
   "note": ""
  },
  {
   "property": "C107",
   "status": "partial",
   "theorems": [
    "Cppnet.C107_isolated_partial",
    "Cppnet.C107_content_type_refuted"
   ],
   "note": "C107_isolated_partial: C107, for handlers that share no state: what a connection gets, in whatever order the reports of the connections come, is what it gets when the others do not exist. | C107_content_type_refuted: C107 is false: once a client has asked a static directory for a file with a custom content type, every client gets an empty content type for files without suffix."
  },
  {
   "property": "C108",
   "status": "partial",
   "theorems": [
    "Cppnet.C108_waits_refuted",
    "Cppnet.C108_timeout_partial"
   ],
   "note": "C108_waits_refuted: C108 is false for a server in I/O multiplexing mode: take any bytes without a blank line (no LF among the first three). If the peer ends the stream there, nothing is answered and the connection is closed; if the bytes go on in another way, something is answered. So when only these bytes have come, `HandleRead` has not returned, and the one thread of the server serves nobody else. | C108_timeout_partial: C108, with timeouts on the sockets (`SetReadTimeout`; when the time is over a read fails, so the stream of such a client ends): any number of clients have sent part of a request, without a blank line (no LF among the first three bytes), and send no more. Whatever the order of reports, all other clients are served exactly as if the slow ones were not there, and each slow one costs the server at most one wait: it is closed then, and no handler is called for it. Missing: the other clients do wait for that time."
  },
  {
   "property": "C109",
   "status": "partial",
   "theorems": [
    "Cppnet.C109_kept_partial",
    "Cppnet.C109_close_ignored_refuted"
   ],
   "note": "C109_kept_partial: C109, the half that holds: a complete request served by handlers that do not touch the stream leaves the connection open when writing the response works \u2014 whatever its headers are. | C109_close_ignored_refuted: C109 is false: `Connection: close` is ignored, also from an HTTP/1.0 client."
  },
  {
   "property": "C110",
   "status": "partial",
   "theorems": [
    "Cppnet.C110_like_plain",
    "Cppnet.C110_left_partial"
   ],
   "note": "C110_left_partial: **C110** (what the handlers read): a handler that reads from a TLS connection takes the bytes off it, as on a plain one: what is left to be read is exactly what the handlers left, however the bytes were cut into records. (The other case is a handler that puts bytes back, which no function of the socket can do.)"
  },
  {
   "property": "C111",
   "status": "partial",
   "theorems": [
    "Cppnet.C111_aligned_partial",
    "Cppnet.C111_exact_partial",
    "Cppnet.C111_one_record_refuted"
   ],
   "note": "C111_aligned_partial: C111 when no record holds bytes of two requests: the requests on a TLS connection are answered in order, one `HandleRead` each, each as if it had come alone. Missing: a record with bytes of two requests, see `C111_exact_partial`. | C111_exact_partial: C111, exactly which requests are answered, however the requests are spread over records (none empty): those that begin not later than the last record, each in its turn and as if it had come alone. The others are decrypted and wait for another record. Missing: the requests that begin inside the last record, see the refutation. | C111_one_record_refuted: C111 is false: of two requests in one TLS record only the first is answered, however long the server waits: the second one is decrypted and ready (`t'.stream`), but nothing reports it."
  },
  {
   "property": "C112",
   "status": "proved",
   "theorems": [
    "Cppnet.C112_like_plain"
   ],
   "note": ""
  },
  {
   "property": "C113",
   "status": "proved",
   "theorems": [
    "Cppnet.C113_not_started",
    "Cppnet.C113_started"
   ],
   "note": ""
  },
  {
   "property": "C114",
   "status": "partial",
   "theorems": [
    "Cppnet.C114_protocol_partial",
    "Cppnet.C114_refused_partial",
    "Cppnet.C114_stays_tls_refuted"
   ],
   "note": "C114_protocol_partial: C114, what holds: after whatever calls, a new connection is served over TLS exactly if some `InitSSL` has succeeded, with the context of the last one that has; the connection is kept exactly when the handshake completes, and closed otherwise. | C114_refused_partial: A refused `InitSSL` (mixed mode, or no context) does nothing and changes nothing. | C114_stays_tls_refuted: C114 is false: a server that was started with `InitSSL`, stopped, and started again with `Init` still does TLS, so clients of plain HTTP are turned away; and in this way TLS is also done in mixed mode, which `InitSSL` refuses."
  },
  {
   "property": "C115",
   "status": "partial",
   "theorems": [
    "Cppnet.C115_timeouts_partial",
    "Cppnet.C115_before_handshake_partial",
    "Cppnet.C115_timeouts_refuted"
   ],
   "note": "C115_timeouts_partial: C115, exactly when it holds: after whatever calls, the reads of a new connection wait as long as the last `SetReadTimeout` says (for ever if it says 0, or was not called), and its writes as long as the last `SetWriteTimeout` says, if and only if the seconds are less than 2^31 and the microseconds less than a million. | C115_before_handshake_partial: The timeouts are in force before the TLS handshake: a client that does not answer cannot hold it up for ever. | C115_timeouts_refuted: C115 is false: two million microseconds are refused by the system, nobody looks at the result, and reads wait for ever; 2^31 seconds make reads not wait at all."
  },
  {
   "property": "C116",
   "status": "partial",
   "theorems": [
    "Cppnet.C116_no_crash_partial",
    "Cppnet.C116_mode_refuted"
   ],
   "note": "C116_no_crash_partial: C116, what holds: as long as the mode is not changed, no sequence of calls on an `HttpServer` (in whatever order, whatever the system answers) goes through a null pointer or an empty callback. | C116_mode_refuted: C116 is false: changing the mode of a server that has been started makes `Run` or `Stop` go through a null pointer."
  },
  {
   "property": "C117",
   "status": "partial",
   "theorems": [
    "Cppnet.C117_stop_partial",
    "Cppnet.C117_stop_refuted"
   ],
   "note": "C117_stop_partial: C117, what holds (I/O multiplexing mode): whatever happened before, after a successful start and any calls except another start, `Stop` (at any moment, also while `Run` waits) has closed the listening socket and the epoll descriptor of this start, and it closes nothing but these (and the socket it wakes the loop with); a second `Stop`, or the destructor, does nothing more. | C117_stop_refuted: C117 is false: connections that are open when the server is stopped stay open, also when the server object is destroyed; and `Init` on a running server forgets the descriptors that it has."
  },
  {
   "property": "C118",
   "status": "partial",
   "theorems": [
    "Cppnet.C118_firings_partial",
    "Cppnet.C118_reset_partial",
    "Cppnet.C118_silent_partial",
    "Cppnet.C118_period_refuted",
    "Cppnet.C118_reset_ignored_partial"
   ],
   "note": "C118_firings_partial: **C118**, what holds: after `Init` with a well formed period and a positive descriptor, the reads of the timer (of 8 bytes or more, starting at any times) report exactly the firings every `sec * 10^9 + nsec` nanoseconds since `Init`. Missing: other periods, see the refutation. | C118_reset_partial: **C118**, what holds: `Reset` of an open timer starts it afresh: the firings reported are those of the new period since `Reset`, and none of those before. | C118_silent_partial: **C118**, the dark side: whenever the period is not well formed `Init` reports success all the same, and no read of the timer ever returns. | C118_period_refuted: **C118**, refuted as stated: `Init(0, 1000000000)` asks for one second, reports success, and the timer never fires. | C118_reset_ignored_partial: A failing `Reset` of a running timer leaves the old period in force and reports success."
  },
  {
   "property": "C119",
   "status": "partial",
   "theorems": [
    "Cppnet.C119_buffer_partial",
    "Cppnet.C119_string_partial",
    "Cppnet.C119_string_refuted",
    "Cppnet.C119_peek_refuted"
   ],
   "note": "C119_buffer_partial: **C119**, what holds: the eight bytes a read leaves in the caller's buffer are the number of firings. | C119_string_partial: **C119**, what holds: the string form of `Read` gives the number of firings when it is below 256. | C119_string_refuted: **C119**, refuted as stated: after 256 firings the string form of `Read` yields the empty string: all firings look lost, and they are not reported again. | C119_peek_refuted: **C119**, refuted as stated: `ReadPeek` takes the firings away."
  },
  {
   "property": "C120",
   "status": "partial",
   "theorems": [
    "Cppnet.C120_init_partial",
    "Cppnet.C120_failed_partial",
    "Cppnet.C120_descriptor_refuted",
    "Cppnet.C120_reset_refuted",
    "Cppnet.C120_zero_refuted",
    "Cppnet.C120_again_refuted",
    "Cppnet.C120_elsewhere_partial"
   ],
   "note": "C120_init_partial: **C120**, what holds: `Init` succeeds exactly when the system gave a positive descriptor, and the object is open then, with that descriptor. | C120_failed_partial: **C120**, what holds: a timer object whose only `Init` failed makes no system call on reading. | C120_descriptor_refuted: **C120**, refuted as stated (the documentation: \"return: timerfd, -1 if failed\"): `Init` never returns the descriptor. | C120_reset_refuted: **C120**, refuted as stated (the documentation of `Reset`: \"-1 if failed\"): `Reset` of an object that was never initialised calls the system with descriptor -1 and reports success. | C120_zero_refuted: **C120**, refuted as stated: a descriptor 0 is a success of the system and reported as a failure; the object is not open and cannot be closed, so the descriptor stays open for good. | C120_again_refuted: **C120**, refuted as stated: after a failed second `Init` the object still counts as open, and reading calls the system with descriptor -1; the first descriptor is lost. | C120_elsewhere_partial: **C120**, on macOS and Windows: whatever is called on a new timer, in any order, every `Init` and `Reset` returns a negative result, every read fails, and no system call is made."
  },
  {
   "property": "C121",
   "status": "partial",
   "theorems": [
    "Cppnet.C121_round_trip_partial",
    "Cppnet.C121_length_partial",
    "Cppnet.C121_one_per_call_partial",
    "Cppnet.C121_round_trip_refuted"
   ],
   "note": "C121_round_trip_partial: **C121**, what holds: the datagrams that any senders wrote are read one per call, in order, each with its sender, whole and unchanged, when none is longer than the length asked for or the largest UDP payload and none contains a NUL. | C121_length_partial: **C121**, what holds of every length: `WriteUdp` returns the length and one datagram is sent, or it returns -1 and none is, exactly when it is longer than the largest UDP payload. | C121_one_per_call_partial: **C121**, what holds of every datagram: each call takes exactly one from the queue, reports its sender and as many bytes as fit; the rest of it is lost and is not mixed with the next one. | C121_round_trip_refuted: **C121**, refuted as stated: `WriteUdp` sends a NUL byte and `ReadUdp` into a string drops it and what follows, though it returns the full length."
  },
  {
   "property": "C122",
   "status": "partial",
   "theorems": [
    "Cppnet.C122_ignored_partial",
    "Cppnet.C122_staying_partial",
    "Cppnet.C122_killed_partial",
    "Cppnet.C122_hangup_refuted",
    "Cppnet.C122_client_refuted",
    "Cppnet.C122_client_ignored_partial"
   ],
   "note": "C122_ignored_partial: **C122**, what holds: if the application has arranged that `SIGPIPE` is ignored, nothing a client does to its connection between the server's writes stops the server. The reports that a client who stays would get served are served up to the failed write, with the same answers, and then the connection is closed. Missing: the default disposition of `SIGPIPE`, see the refutation. | C122_staying_partial: **C122**, what holds: a client that stays is served as before, whatever the disposition of `SIGPIPE`. | C122_killed_partial: **C122**, exactly when the process ends by default: when a write is made on a connection whose peer is gone. | C122_hangup_refuted: **C122**, refuted as stated: a client sends two complete requests to a server with one harmless handler and closes its connection. The server answers the first; the answer to the second one ends the process. | C122_client_refuted: **C122**, for clients, refuted as stated: the server has closed an idle connection; the first `Send` on it gets no answer, and the second one ends the client's process. | C122_client_ignored_partial: **C122**, for clients, what holds: with `SIGPIPE` ignored no `Send` of a request that can be built ends the process. To a server that is there, or that has closed its side, it sends as always, whatever the disposition; to one that is gone it reads nothing and leaves the response as it was (and returns success: C39)."
  },
  {
   "property": "C123",
   "status": "partial",
   "theorems": [
    "Cppnet.C123_logged_partial",
    "Cppnet.C123_one_line_partial",
    "Cppnet.C123_forged_refuted",
    "Cppnet.C123_incomplete_partial",
    "Cppnet.C123_bad_request_partial",
    "Cppnet.C123_no_body_partial",
    "Cppnet.C123_blank_line_refuted",
    "Cppnet.C123_static_forged_refuted"
   ],
   "note": "C123_logged_partial: **C123**, what holds: a complete request is logged by two messages: one with its method, path and connection when it was read, and, if the answer could be written, one with the status that the answer carries. (Only the server's own messages.) Missing: that each message is one line, see the refutations. | C123_one_line_partial: **C123**, what holds: the message about a request is a single line when its decoded path has no line break. | C123_forged_refuted: **C123**, refuted as stated: one request whose path has a line break in it makes the console look exactly as if the application had logged a message that the client made up. (The path may have no spaces; it may have line breaks.) | C123_incomplete_partial: **C123**, a request that never becomes complete: one message of level error, which says whether the client closed, was too slow, or the connection failed; nothing about an answer, and none is sent. | C123_bad_request_partial: **C123**, a request that cannot be parsed: a message of level error with the parser's reason, and one with the status 400 of the answer. | C123_no_body_partial: **C123**, a request that announces a body of which nothing comes: one message of level error, nothing about an answer, and none is sent. (A body that comes in part is served, C45.) | C123_blank_line_refuted: **C123**, refuted as stated: the message about the answer always carries a line break of its own, so the log has an empty line after it. | C123_static_forged_refuted: **C123**, refuted as stated, for the messages of the static handlers: a path with a line break makes `StaticDir` write a line that the client has made up."
  },
  {
   "property": "C124",
   "status": "partial",
   "theorems": [
    "Cppnet.C124_select_partial",
    "Cppnet.C124_select_refuted",
    "Cppnet.C124_answers_partial",
    "Cppnet.C124_full_refuted",
    "Cppnet.C124_kqueue_partial"
   ],
   "note": "C124_select_partial: **C124**, what holds with `select`: as long as at most 64 different descriptors are ever monitored, exactly those are watched that were monitored and not removed since `Init`, whatever the set held before. Missing: more descriptors, see the refutation. | C124_select_refuted: **C124**, refuted as stated: with `select` the 65th descriptor is reported as monitored and is not watched. | C124_answers_partial: **C124**, with `select`, for the calls one by one: neither ever reports failure; a descriptor that is removed is not watched any more, and the others are watched as before. | C124_full_refuted: **C124**, with `select` and any 64 descriptors: every further one is reported as monitored, and is not. | C124_kqueue_partial: **C124**, what holds with `kqueue`: a call that reports success has its effect, and one that reports failure has none."
  },
  {
   "property": "C125",
   "status": "partial",
   "theorems": [
    "Cppnet.C125_select_partial",
    "Cppnet.C125_select_refuted",
    "Cppnet.C125_kqueue_partial"
   ],
   "note": "C125_select_partial: **C125**, what holds with `select`: a watched descriptor that stays ready, and that no callback removes, is reported within as many rounds as there are descriptors before it, plus one. Missing: in the very round, see the refutation. | C125_select_refuted: **C125**, refuted as stated: with `select`, when a callback removes its connection, the next one in the set is skipped in this round although it is ready. | C125_kqueue_partial: **C125**, what holds with `kqueue` (and with epoll, see `ioBatch`): every event that the kernel reports and that says leave, error or read is passed on, in order, whatever the callbacks do."
  },
  {
   "property": "C126",
   "status": "partial",
   "theorems": [
    "Cppnet.C126_server_partial",
    "Cppnet.C126_multithread_refuted",
    "Cppnet.C126_epoll_partial",
    "Cppnet.C126_kqueue_refuted"
   ],
   "note": "C126_server_partial: **C126**, what holds of the server in the modes with epoll: signals that interrupt its waits change nothing. `EventLoop` without them ends in the same way, with the server in the same state, and does everything else in the same order. Missing: the multi-thread mode, see the refutation, and `kqueue`. | C126_multithread_refuted: **C126**, refuted for the multi-thread mode: a signal that interrupts `accept` (which then returns -1) ends the event loop of every running server with an error; had it not come, the loop would have waited for the next connection. | C126_epoll_partial: **C126**, what holds with epoll: waits that are interrupted by a signal change nothing: the server and the way the loop ends are those of the run without them, and so is all that happens besides the failed waits. | C126_kqueue_refuted: **C126**, refuted as stated: with `kqueue` a signal ends the loop with an error."
  },
  {
   "property": "C127",
   "status": "partial",
   "theorems": [
    "Cppnet.C127_select_partial",
    "Cppnet.C127_kqueue_refuted",
    "Cppnet.C127_kqueue_partial"
   ],
   "note": "C127_select_partial: **C127**, what holds with `select`: only ready, watched descriptors are reported; `leave` is reported only when there is nothing left to read, and `read` exactly when there is something. | C127_kqueue_refuted: **C127**, refuted as stated: with `kqueue` a connection that has unread data and whose peer has closed is reported as left, and the server closes it. | C127_kqueue_partial: **C127**, what holds with `kqueue`: while the peer has not closed, an event is reported as what it is."
  },
  {
   "property": "C128",
   "status": "proved",
   "theorems": [
    "Cppnet.C128_answered"
   ],
   "note": ""
  },
  {
   "property": "C129",
   "status": "proved",
   "theorems": [
    "Cppnet.C129_resumed"
   ],
   "note": ""
  },
  {
   "property": "C130",
   "status": "partial",
   "theorems": [
    "Cppnet.C130_framed_refuted",
    "Cppnet.C130_chunked_refuted",
    "Cppnet.C130_head_refuted",
    "Cppnet.C130_no_headers_refuted",
    "Cppnet.C130_length_partial"
   ],
   "note": "C130_framed_refuted: C130 is false for every response that is not framed by a header spelled exactly `Content-Length` (another spelling, the chunked coding, or a body that ends with the connection): `Send` returns 0 with an empty body, and the body stays on the stream, where the next `Send` takes it for its response. | C130_chunked_refuted: C130 is false: after a chunked response `Send` returns 0 with no body, and the next `Send` throws out of `substr` (the length of a chunk of less than 16 bytes brings a line feed among the first three bytes, C34). | C130_head_refuted: C130 is false for a response to HEAD: it announces the length of a body that does not follow, and `Send` waits for it; it returns an error when the connection ends, or takes what comes next for the body. | C130_no_headers_refuted: C130 is false for a response without header lines: an error, whatever the status. | C130_length_partial: C130, what holds: the last header spelled `Content-Length` gives the length of the body, which has no NUL byte: `Send` returns 0 with the status, the headers and exactly this body, and leaves what follows on the stream."
  },
  {
   "property": "C131",
   "status": "partial",
   "theorems": [
    "Cppnet.C131_framed_refuted",
    "Cppnet.C131_smuggled_refuted",
    "Cppnet.C131_length_partial"
   ],
   "note": "C131_framed_refuted: C131 is false for every request that is not framed by a header spelled exactly `Content-Length` \u2014 one spelled `content-length`, or the chunked coding: the handlers are given an empty body, and the body is left on the stream, where the next report takes it for a request. | C131_smuggled_refuted: C131 is false: a request for `/admin` inside the body of another request is served. | C131_length_partial: C131, what holds: the last header spelled `Content-Length` gives the length of the body, which has no NUL byte: the handlers get exactly this body and all headers, and what follows is left on the stream."
  },
  {
   "property": "C132",
   "status": "partial",
   "theorems": [
    "Cppnet.C132_case_refuted",
    "Cppnet.C132_host_refuted",
    "Cppnet.C132_exact_partial"
   ],
   "note": "C132_case_refuted: C132 is false for all names that differ only in case: what was added (or received) under one is not found under the other. | C132_host_refuted: C132 is false: a request with `host: a` has no host for the library. | C132_exact_partial: C132, what holds: under exactly the name it was added with, it is found."
  },
  {
   "property": "C133",
   "status": "partial",
   "theorems": [
    "Cppnet.C133_throw_refuted",
    "Cppnet.C133_others_refuted",
    "Cppnet.C133_elsewhere_partial"
   ],
   "note": "C133_throw_refuted: C133 is false for every program: when a handler (or filter) throws while a report is handled, the exception leaves `HandleRead`, and the whole run of the server ends with it, whatever other connections have sent. | C133_others_refuted: Connection 1 asked for a page that is fine; it is not answered because connection 0 asked for the other. | C133_elsewhere_partial: C133, what holds: a handler that throws does so only for the requests that are routed to it. If the handlers and filters that belong to a path do not throw, requests for this path are handled normally, whatever the handlers of other paths do. (For registrations that do not collide, C40.)"
  },
  {
   "property": "C134",
   "status": "partial",
   "theorems": [
    "Cppnet.C134_accesses",
    "Cppnet.C134_queue_partial",
    "Cppnet.C134_threads_partial",
    "Cppnet.C134_in_use_partial",
    "Cppnet.C134_refused_refuted",
    "Cppnet.C134_init_refuted",
    "Cppnet.C134_two_stops_refuted"
   ],
   "note": "C134_queue_partial: C134, what holds of the queue: however the pool is used, by any number of threads, as long as nobody is destroying it no two threads race for the task queue. | C134_threads_partial: C134, what holds of the thread objects: as long as one thread makes all calls but `AddTask` and `GetBusyAndTaskNum`, no two threads race for them. | C134_in_use_partial: C134, what holds while the pool is in use: a pool that has been set up with at least one thread (nobody is in a call; how it came to this does not matter), then `AddTask` and `GetBusyAndTaskNum` from any threads and tasks and `Stop` from one thread, in any interleaving: no two threads race for anything until `Stop` has cleared the flag; and after that at most for the error text. | C134_refused_refuted: C134 is false for every pool that is stopped or not set up: two threads that call `AddTask` at the same time both write the error text. | C134_init_refuted: C134 is false for every running pool: `AddTask` in one thread and `Init` in another race for the number of threads. | C134_two_stops_refuted: C134 is false for every running pool: two threads that call `Stop` at the same time can both join the same thread."
  },
  {
   "property": "C135",
   "status": "proved",
   "theorems": [
    "Cppnet.C135_freed_once",
    "Cppnet.C135_reset",
    "Cppnet.C135_reads_alive"
   ],
   "note": ""
  },
  {
   "property": "C136",
   "status": "partial",
   "theorems": [
    "Cppnet.C136_copy_refuted",
    "Cppnet.C136_reset_refuted"
   ],
   "note": "C136_copy_refuted: C136 is false for every trie: when a trie and its copy are both destroyed, the second destructor uses a deleted node. | C136_reset_refuted: C136 is false for every trie: after `Reset` on a copy, every `Get`, `Search`, `Set` or `Reset` on the original uses a deleted node."
  },
  {
   "property": "C137",
   "status": "partial",
   "theorems": [
    "Cppnet.C137_text_partial",
    "Cppnet.C137_stop",
    "Cppnet.C137_path_partial",
    "Cppnet.C137_accesses",
    "Cppnet.C137_time_refuted",
    "Cppnet.C137_path_refuted"
   ],
   "note": "C137_text_partial: **C137** (the buffered text). A logger that one thread uses never races with its own worker for the text of a buffer, whatever the two do, however the pool schedules them and whatever the file system does, as long as the number of buffers is at least one and set before `Init`. | C137_path_partial: **C137** (the path). A call of `Init` on a logger that was not initialised, or was stopped, does not race with the worker for the path. | C137_time_refuted: C137 is false of the time of the last flush, in ordinary use: two buffers, no fault, no call but `Init` and logging. The worker marks a buffer as free before it stores the time, and the logging thread may by then be asking for that time. | C137_path_refuted: C137 is false of the path if `Init` is called on a logger that is in use: it assigns the path before anything else, and the worker may be copying it."
  },
  {
   "property": "C138",
   "status": "partial",
   "theorems": [
    "Cppnet.C138_only_partial",
    "Cppnet.C138_plain_partial",
    "Cppnet.C138_changes_partial",
    "Cppnet.C138_one_partial",
    "Cppnet.C138_tls_refuted",
    "Cppnet.C138_types_refuted",
    "Cppnet.C138_log_refuted",
    "Cppnet.C138_stop_refuted",
    "Cppnet.C138_length_refuted"
   ],
   "note": "C138_only_partial: **C138** (what can race at all). While a server runs in several threads, the only variables that can race are: the table of the custom content types; with TLS the map of the sessions and the context's error text; with a `FileLogger` its buffers; and, if `Stop` is called, the flags, the error text and the descriptors of the server; and, in the multi-thread mode or if `Stop` is called, the variable in which `Address` hands the length of an address to the system. In particular the routes never race. | C138_plain_partial: **C138** (what holds). A plain server with the default logger, with any number of workers and whatever the requests, while nobody calls `Stop` or destroys it and `StaticDir` serves no file of a custom content type, has no data race at all in the mixed mode, and in the multi-thread mode none but on the length of an address (see `C138_length_refuted`). | C138_changes_partial: **C138** (the accesses are complete). An action changes none of the server's variables without being said to write it. | C138_one_partial: **C138** (one at a time). With the default logger, and while nobody calls `Stop` or destroys the server, nothing races as long as only one connection is being served, with TLS or without, but for the length of an address in the multi-thread mode. | C138_tls_refuted: **C138 is false** for a TLS server in the multi-thread mode: two connections whose handshakes end at the same time write the map of the sessions at the same time; and a connection with a session that sends a request looks its session up while the session of another connection is put into the map. | C138_types_refuted: **C138 is false** for a plain server: after `SetCustomContentType`, two requests for files of that type that a `StaticDir` serves write the table of the custom content types at the same time. | C138_log_refuted: **C138 is false** for a server that logs to a file: two connections are greeted in the log at the same time. | C138_stop_refuted: **C138 is false** for `Stop`: it writes the flag that the thread in `Run` is reading, and the one that is read after every handler. | C138_length_refuted: **C138 is false** for every server in the multi-thread mode, whatever its settings and with one worker already: while the address of a new connection is asked for, the thread in `Run` accepts the next connection, and both write the length of an address."
  },
  {
   "property": "C139",
   "status": "partial",
   "theorems": [
    "Cppnet.C139_success_partial",
    "Cppnet.C139_failure_refuted"
   ],
   "note": "C139_success_partial: **C139** (what holds). When `Run` has returned success, no handler is running, none will run any more whatever happens next, and the destructor frees nothing that is in use. | C139_failure_refuted: **C139 is false** when an `accept` fails: `Run` returns the error while a handler of an earlier connection goes on, and a destructor that is called then frees the routes that the handler's request is still being looked up in."
  },
  {
   "property": "C140",
   "status": "proved",
   "theorems": [
    "Cppnet.C140_headers",
    "Cppnet.C140_typed",
    "Cppnet.C140_params"
   ],
   "note": ""
  },
  {
   "property": "C141",
   "status": "partial",
   "theorems": [
    "Cppnet.C141_values_partial",
    "Cppnet.C141_header_refuted",
    "Cppnet.C141_text_refuted"
   ],
   "note": "C141_values_partial: C141, the part that holds: reading with `operator[]` gives the value `Get` gives, and changes no value that `Get` and `GetParam` return; the object is unchanged if the name is there. | C141_header_refuted: C141 is false: looking up a header that is not there with `operator[]` makes the text of the header longer by a line for it, for every header and every name. | C141_text_refuted: C141 is false: the text of a request changes when the server's or the client's code merely reads a missing header and a missing parameter with `operator[]`."
  },
  {
   "property": "C142",
   "status": "partial",
   "theorems": [
    "Cppnet.C142_get_partial",
    "Cppnet.C142_post_partial",
    "Cppnet.C142_get_fresh_partial",
    "Cppnet.C142_post_fresh_partial",
    "Cppnet.C142_form_fresh_partial",
    "Cppnet.C142_form_items_partial",
    "Cppnet.C142_get_wire_partial",
    "Cppnet.C142_post_wire_partial",
    "Cppnet.C142_reuse_refuted",
    "Cppnet.C142_chop_refuted",
    "Cppnet.C142_form_refuted"
   ],
   "note": "C142_get_partial: C142, the part that holds for every request object, whatever was in it: `GET` sets the method, the version, the path, the given parameters and the given headers; parameters and headers of other names and the body are those the object had. | C142_post_partial: C142, the part that holds for every request object: `POST` with a body sets the method, the version, the path, the body and the given headers; the parameters of the URL and the headers of other names are those the object had. | C142_get_fresh_partial: C142: with a new or cleared request object, `GET` makes a request with exactly the given path, parameters and headers and an empty body. | C142_post_fresh_partial: C142: with a new or cleared request object, `POST` with a body makes a request with exactly the given path, body and headers and no parameters in the URL. | C142_form_fresh_partial: C142: with a new or cleared request object, `POST` with parameters makes a request whose body is the text of a form with exactly these parameters, in some order. | C142_form_items_partial: C142: if no name has a `=` or `&` in it and no value a `&`, the items between the `&` of the body are `name=value` for exactly the given parameters. | C142_get_wire_partial: C142, end to end: what `GET` with a new or cleared object was given is what the server's `HttpReq::Parse` reads, if path, parameters and headers survive the wire (`Host` and `Content-Length` are added by `Build`). | C142_post_wire_partial: C142, end to end: the same for `POST` with a body, which arrives byte for byte (below 2 GiB the announced length is its length). | C142_reuse_refuted: C142 is false for an object that is used again: a parameter, a header or a body of the first request that the second call does not mention is sent once more with the second. | C142_chop_refuted: C142 is false for an object that is used again: `POST` with an empty set of parameters removes the last byte of the old body, whatever it is. | C142_form_refuted: C142 is false for the form: names and values are not encoded, so that different parameters make the same body."
  },
  {
   "property": "C143",
   "status": "proved",
   "theorems": [
    "Cppnet.C143_kind",
    "Cppnet.C143_history",
    "Cppnet.C143_dirs",
    "Cppnet.C143_no_parent",
    "Cppnet.C143_not_a_dir"
   ],
   "note": ""
  },
  {
   "property": "C144",
   "status": "proved",
   "theorems": [
    "Cppnet.C144_command_line",
    "Cppnet.C144_one_meaning"
   ],
   "note": ""
  },
  {
   "property": "C145",
   "status": "partial",
   "theorems": [
    "Cppnet.C145_exact_partial",
    "Cppnet.C145_required_partial",
    "Cppnet.C145_order_refuted",
    "Cppnet.C145_usage",
    "Cppnet.C145_version"
   ],
   "note": "C145_exact_partial: C145, exactly: for every command line and every order of the calls before it, `Run` calls the program `f` exactly if `f` was assigned last, everything required *since then* is given, and neither help nor the version is asked for. | C145_required_partial: C145, what holds: if the required options are declared after the program was assigned, `Run` calls the program exactly if nothing required is missing and neither help nor the version is asked for. Missing: options that are declared before, which are not required (`C145_order_refuted`). | C145_order_refuted: C145 is false: an option that is declared as required before the program is assigned is not required."
  },
  {
   "property": "C146",
   "status": "partial",
   "theorems": [
    "Cppnet.C146_restarts",
    "Cppnet.C146_no_handler",
    "Cppnet.C146_guardian_serves_refuted",
    "Cppnet.C146_fork_refuted"
   ],
   "note": "C146_guardian_serves_refuted: C146 is false: when the child of the web server has ended normally, the guardian itself leaves `Guard`, that is, it starts the server once more in its own process. | C146_fork_refuted: C146 is false: when no child can be started, the handler is told that it ended normally, and the guardian leaves `Guard`."
  },
  {
   "property": "C147",
   "status": "partial",
   "theorems": [
    "Cppnet.C147_last_child_partial",
    "Cppnet.C147_first_child_partial",
    "Cppnet.C147_fork_refuted",
    "Cppnet.C147_child_refuted",
    "Cppnet.C147_reaped_refuted"
   ],
   "note": "C147_last_child_partial: C147, what holds: a guardian that could start each of its children and is told to end sends SIGINT to the child it started last, and to nobody else; before the first child it sends nothing. Missing: rounds in which `fork` fails (`C147_fork_refuted`); the children themselves (`C147_child_refuted`). | C147_first_child_partial: C147: each child inherits the `child_pid_` of its elder: told to end, the first one sends no signal. | C147_fork_refuted: C147 is false: after a failed `fork` a guardian that is told to end sends SIGINT to every process of the system. | C147_child_refuted: C147 is false: a child that was started after a crash and is told to end sends SIGINT to the number of its crashed elder, whoever has that number now. (`kill(502, SIGINT)` by the guardian makes child 502 do that.) | C147_reaped_refuted: C147 is false: while the guardian waits to start the next child, it signals a child that was collected already."
  },
  {
   "property": "C148",
   "status": "partial",
   "theorems": [
    "Cppnet.C148_signals",
    "Cppnet.C148_stop_partial",
    "Cppnet.C148_foreground_refuted",
    "Cppnet.C148_no_file_refuted",
    "Cppnet.C148_stale_refuted",
    "Cppnet.C148_reload_refuted"
   ],
   "note": "C148_stop_partial: C148, what holds: a server that was started in the background under a pid above 66 and could write its pid file is signalled by `-stop` and by `-reload`, as long as nothing else writes the file and it can be read: exactly it, with SIGINT; `-stop` starts nothing, `-reload` goes on with the configuration. Missing: servers in the foreground (`C148_foreground_refuted`), a missing pid file (`C148_no_file_refuted`). | C148_foreground_refuted: C148 is false: a server that runs in the foreground writes the pid 0, and `-stop` does not stop it. | C148_no_file_refuted: C148 is false: without a pid file `-stop` starts a server. | C148_stale_refuted: C148 is false in another way: nobody removes the pid file. Once a server that ran in the background has ended, each further `-stop` sends SIGINT to whoever has its number now, and reports success: `later` is any later file system in which the file was not written again. | C148_reload_refuted: C148 is false for `-reload` with a configuration that is missing or wrong: the running server is ended first, and then none is started."
  },
  {
   "property": "C149",
   "status": "partial",
   "theorems": [
    "Cppnet.C149_items_partial",
    "Cppnet.C149_shipped_refuted",
    "Cppnet.C149_config",
    "Cppnet.C149_directory_refuted",
    "Cppnet.C149_port_refuted",
    "Cppnet.C149_address_partial"
   ],
   "note": "C149_items_partial: C149, what holds: if no route of the configuration is a proper prefix of the route of an earlier item (redirects come first), and exactly one item is about the path of a request, the server does for the request what the item says. Missing: routes in another order, for which the shipped configuration itself is an example (`C149_shipped_refuted`); requests several items are about (C40 tells what is called then, C42 that all of them are). | C149_shipped_refuted: C149 is false for the configuration that is shipped with the program: it asks for the index page at `/` and for a redirect at `/hello`, but `GET /` is answered with 404, and `GET /hello` with the index page. | C149_directory_refuted: C149 is false: a configuration file that is a directory is not reported, the program dies of the exception (with a library that throws when a directory is read). | C149_port_refuted: C149 is false: the port is cut to 16 bits. | C149_address_partial: C149: ports from 0 to 65535 and the host are used as they are configured."
  },
  {
   "property": "C150",
   "status": "partial",
   "theorems": [
    "Cppnet.C150_multithread_partial",
    "Cppnet.C150_mixed_partial",
    "Cppnet.C150_multithread_refuted",
    "Cppnet.C150_http_server_refuted",
    "Cppnet.C150_mixed_refuted"
   ],
   "note": "C150_multithread_partial: C150, what holds in the multi-thread mode: with callbacks that close a connection only when they are told that its peer has left, whatever the number of connections, however the tasks are interleaved and whichever free numbers the system gives to new connections, every system call of a task reaches the connection the task was made for, and no connection is closed by anybody else. | C150_mixed_partial: C150, what holds in the mixed mode: with callbacks that close nothing, and if no peer leaves while a task of its connection is waiting or running, every system call reaches the connection it was meant for. | C150_multithread_refuted: C150 is false in the multi-thread mode: whenever a callback closes its socket on a read, whatever else it does and whatever the number of the descriptor, the task goes on to peek at the number; if the next client has got this number by then, the task of the first client reads from the connection of the second. | C150_http_server_refuted: The callback of `HttpServer` is of this kind, since it closes a connection on a bad request, and on the accept if it cannot get the address: the task goes on and reads from the next connection in both cases. One that never drops a connection closes nothing (and leaks them all, C62). | C150_mixed_refuted: C150 is false in the mixed mode, even with callbacks that close nothing: the connection is closed because its peer has left while a task of it still waits in the queue, the next client gets its number, and the waiting task reads from that connection."
  },
  {
   "property": "C151",
   "status": "proved",
   "theorems": [
    "Cppnet.C151_request",
    "Cppnet.C151_request_build",
    "Cppnet.C151_response_build",
    "Cppnet.C151_response",
    "Cppnet.C151_server"
   ],
   "note": ""
  },
  {
   "property": "C152",
   "status": "partial",
   "theorems": [
    "Cppnet.C152_tcp_init_partial",
    "Cppnet.C152_watch_refuted",
    "Cppnet.C152_http_init_partial",
    "Cppnet.C152_client_init",
    "Cppnet.C152_tls_init_partial",
    "Cppnet.C152_handshake_refuted",
    "Cppnet.C152_send_partial",
    "Cppnet.C152_cut_refuted"
   ],
   "note": "C152_tcp_init_partial: C152, what holds for `TcpServer::Init`: if it fails, and not because the listening socket cannot be watched, `err_msg()` names the first thing that went wrong. If it succeeds the message is left as it was. | C152_watch_refuted: C152, where the code fails: if the listening socket cannot be watched (`epoll_ctl` fails), `Init` fails with the message `[syserr]:` and nothing behind it, whatever the reason. | C152_http_init_partial: C152, what holds for `HttpServer::Init`: the message is that of the underlying server, so it names the first thing that went wrong (again unless the listening socket cannot be watched). If `Init` succeeds the message is left as it was. | C152_tls_init_partial: C152, what holds for the TLS client: `InitSSL` names the failure, if it is not the handshake that fails. | C152_handshake_refuted: C152, where the code fails: after a failed TLS handshake the message is the text of `errno`, whatever OpenSSL says. | C152_send_partial: C152, what holds for `Send`: if the request was written, then after a failure the message names what was wrong with the request or with what came back, if either nothing came back or a complete header did (and it announces no body over 2 GB less a page); after success the message is left as it was. | C152_cut_refuted: C152, where the code fails: if the connection ends or fails inside the header of the response, `Send` says that the response is empty, whatever has been received."
  },
  {
   "property": "C153",
   "status": "proved",
   "theorems": [
    "Cppnet.C153_hello",
    "Cppnet.C153_client"
   ],
   "note": ""
  },
  {
   "property": "C154",
   "status": "proved",
   "theorems": [
    "Cppnet.C154_simple"
   ],
   "note": ""
  },
  {
   "property": "C155",
   "status": "partial",
   "theorems": [
    "Cppnet.C155_picture_partial",
    "Cppnet.C155_bad_body_refuted",
    "Cppnet.C155_index_refuted"
   ],
   "note": "C155_picture_partial: C155, what holds: the `mnist` program answers a posted picture with the prediction for it (given row by row), and nothing is read outside the picture; paths other than `/mnist` get the 404 page. | C155_bad_body_refuted: C155 is false for every body that is not a picture: instead of the answer 400 the program reads `result`, which was never written. | C155_index_refuted: C155 is false for the page itself: whatever is in `./index.html`, a request for `/` gets the 404 page, since `StaticFile(\"/\")` was attached to `/mnist` (C40)."
  },
  {
   "property": "C156",
   "status": "proved",
   "theorems": [
    "Cppnet.C156_notation",
    "Cppnet.C156_stable"
   ],
   "note": ""
  },
  {
   "property": "C157",
   "status": "partial",
   "theorems": [
    "Cppnet.C157_queue_partial",
    "Cppnet.C157_behind_refuted",
    "Cppnet.C157_in_time_partial"
   ],
   "note": "C157_queue_partial: C157, the exact behaviour: in every history of `Send`s in time, `Send`s that time out, and reconnections, each `Send` returns the oldest answer that has not been read on this connection. So as long as no `Send` has timed out since the connection was made, every `Send` returns the answer to its own request; requests that cannot be built do no harm. | C157_behind_refuted: C157, refuted: after a `Send` that timed out, the next `Send` on the connection returns success with the answer to the earlier request; and so it goes on, one behind, with every later one. | C157_in_time_partial: C157: with no timeout, every `Send` of a request that can be built returns the answer to it, also after requests that could not be built."
  },
  {
   "property": "C158",
   "status": "partial",
   "theorems": [
    "Cppnet.C158_caught_refuted",
    "Cppnet.C158_gets_partial",
    "Cppnet.C158_answered_partial",
    "Cppnet.C158_throw_refuted",
    "Cppnet.C158_stop_refuted",
    "Cppnet.C158_left_refuted"
   ],
   "note": "C158_caught_refuted: C158 is false for a task that stops its own pool even if it catches the exception it gets. The task of worker `w` has called `Stop` (or `Resize`), nobody else has asked for the pool to be stopped, and the task catches what the call throws. Whatever any thread does from then on, every new `AddTask` is refused, no new `Init` returns, and the pool is never destroyed: a client that destroys it ends the program. | C158_gets_partial: C158, what a task gets back from its own pool, in every execution: from `AddTask` 0 or -2, from `GetBusyAndTaskNum` two numbers; `Init` and the destructor never return to it; `Resize` returns only if it asked for no change; `Stop` returns only if another thread or task has asked for the pool to be stopped. | C158_answered_partial: C158, the calls that are safe: a call of `AddTask` or `GetBusyAndTaskNum`, made by a task (or any thread) at any time, can always come to its answer without a new call, a spurious wake-up or an exception, and without any running task having to end. | C158_throw_refuted: C158 is false for a task that fails: whatever the pool is doing, an exception that leaves a task ends the program; and this happens while another task is running and one more is waiting. | C158_stop_refuted: C158 is false for a task that stops its own pool, resizes it, initialises it again or destroys it: each of these ends the program, although no task throws. | C158_left_refuted: C158 is false in another way: a task that stops the pool and a client that stops it at the same time; the client's `Stop` has returned, the task has not, and the task's thread is still running in the pool that the client takes for stopped."
  },
  {
   "property": "C159",
   "status": "partial",
   "theorems": [
    "Cppnet.C159_name",
    "Cppnet.C159_address_partial",
    "Cppnet.C159_broadcast_refuted",
    "Cppnet.C159_long_name_partial"
   ],
   "note": "C159_address_partial: C159, what holds of the address: `GetLocalIP` returns the first address found for the machine's name, as a dotted quad that `Address::Init` reads as exactly this address; if nothing is found it returns the empty text. | C159_broadcast_refuted: C159 is false where nothing is found for the name (a machine without an entry for itself): `GetLocalIP` gives no error but the empty text, which `Address::Init` takes for 255.255.255.255, reporting success. | C159_long_name_partial: C159, why the size of the buffer matters: with a name of 512 bytes or more, which Linux does not allow, both functions would read beyond it."
  },
  {
   "property": "C160",
   "status": "partial",
   "theorems": [
    "Cppnet.C160_multiplexed_partial",
    "Cppnet.C160_multithread_refuted"
   ],
   "note": "C160_multiplexed_partial: **C160**, what holds in the modes with epoll: whatever else happens in a run of the event loop, connections that cannot be taken change nothing but what is reported about them. The run without them ends in the same way, with the server in the same state, and does everything else in the same order. Missing: the multi-thread mode, see the refutation, and callbacks that do something when they get the error. | C160_multithread_refuted: **C160**, refuted for the multi-thread mode: the first `accept` that fails (because the peer has given up meanwhile, or no descriptor is left, or a signal arrives) ends the event loop with an error, whatever connections would come afterwards. The listening socket stays open, and the thread pool is not stopped."
  },
  {
   "property": "C161",
   "status": "partial",
   "theorems": [
    "Cppnet.C161_http_partial",
    "Cppnet.C161_socket_refuted",
    "Cppnet.C161_socket_partial"
   ],
   "note": "C161_http_partial: **C161**, what holds of the README: its HTTP client and its HTTP server understand each other, whatever the order of the hash maps in the two programs. The server reads the client's request as a request for `/` and writes the page, once; and when that arrives, the client's `Send` succeeds and its response holds the page, and builds to a text that is the server's answer up to the order of the two header lines. Missing: the other client, see the refutation. | C161_socket_refuted: **C161**, refuted for the client that uses a `Socket`: when everything works and the whole message is sent, it says that writing went wrong and returns 11, whatever the server answers. It does not read, and does not close the connection. | C161_socket_partial: **C161**, what holds of that client: when the socket cannot be created or the connection not be made, or nothing can be sent, it says so, returns the error and does nothing more with the connection."
  },
  {
   "property": "C162",
   "status": "partial",
   "theorems": [
    "Cppnet.C162_server_partial",
    "Cppnet.C162_server_refuted",
    "Cppnet.C162_client_partial",
    "Cppnet.C162_client_refuted"
   ],
   "note": "C162_server_partial: **C162**, what holds: a complete request makes the server ask for no larger block than the request is long, whatever follows it; and any bytes at all for no larger one than 2 GiB. If the block can be made, or 2 GiB can, the request is served as with unlimited memory. Missing: incomplete requests, see the refutation. | C162_server_refuted: **C162**, refuted: a client that sends one header of 47 bytes makes the server ask for 2 GiB before anything of the body has arrived, whatever the server's handlers are, also if there is no handler for the path. If it does not get them the program ends. | C162_client_partial: The client's half of **C162**, what holds: when `Send` gets its answer, the block it asked for is no larger than what it took from the stream; no answer makes it ask for more than 2 GiB; and if the block can be made, or 2 GiB can, `Send` does what it does with unlimited memory. | C162_client_refuted: The client's half of **C162**, refuted: a server that sends 47 bytes makes the client ask for 2 GiB."
  },
  {
   "property": "C163",
   "status": "partial",
   "theorems": [
    "Cppnet.C163_one_thread",
    "Cppnet.C163_pieces_partial",
    "Cppnet.C163_refuted"
   ],
   "note": "C163_pieces_partial: **C163**, what holds for several threads: nothing is lost or invented. Every thread's pieces are on the console in its own order, and each character is there as often as all the lines together contain it, so that in particular there are as many ends of lines. Missing: that the pieces of one line stay together, see the refutation. | C163_refuted: **C163**, refuted: two threads that log one line each, at the same time, may leave two tags on one line."
  },
  {
   "property": "C164",
   "status": "partial",
   "theorems": [
    "Cppnet.C164_one_at_a_time_partial",
    "Cppnet.C164_fields_partial",
    "Cppnet.C164_refuted"
   ],
   "note": "C164_one_at_a_time_partial: **C164**, what holds: if no two threads are in a logging call at the same time, be it on different loggers, every line gets the time that its own call read from the clock. | C164_fields_partial: **C164**, what holds for loggers in several threads: a stamp always has its six fields, and each of them is that of a time which some thread has read from the clock for a line of its own. | C164_refuted: **C164**, refuted: while a thread copies its time stamp, another thread that logs to another file may overwrite it. From whatever two times the clocks of the two calls give, the first line gets any number of fields of the one and the rest of the other."
  },
  {
   "property": "C165",
   "status": "partial",
   "theorems": [
    "Cppnet.C165_accounted_partial",
    "Cppnet.C165_after_stop_partial",
    "Cppnet.C165_destroyed_partial",
    "Cppnet.C165_same_partial",
    "Cppnet.C165_kept_refuted",
    "Cppnet.C165_destructor_refuted"
   ],
   "note": "C165_accounted_partial: C165, what holds, whatever the destructors do: each accepted task is in exactly one place: what it captured has been destroyed, once, or a worker keeps it, or it is queued. While a task is executed its worker keeps it. A worker that has returned keeps nothing. Missing: that nothing is kept when nothing is executed, see the refutations. | C165_after_stop_partial: C165, what holds, for a pool that one thread initialises, stops and never resizes: when `Stop` returns, everything that the tasks taken from the queue had captured has been destroyed, exactly once, and the other accepted tasks are in the queue. | C165_destroyed_partial: C165, what holds however the pool was used: once the pool has been destroyed, what each accepted task captured has been destroyed, exactly once. | C165_same_partial: C165: tasks whose captured objects do not call the pool when they are destroyed change nothing: the pool does exactly what the other theorems about it say. | C165_kept_refuted: C165 is false: when a task has returned and the pool has nothing to do, the worker still keeps what the task captured, and keeps it until somebody calls the pool again. | C165_destructor_refuted: C165 is false, and worse: if the destructor of what a task captured calls `AddTask` or `GetBusyAndTaskNum`, the worker never comes out of taking the next task. It holds the mutex: no task is ever taken again, and no `AddTask` or `GetBusyAndTaskNum` of any thread succeeds, whatever happens."
  },
  {
   "property": "C166",
   "status": "partial",
   "theorems": [
    "Cppnet.C166_exact_partial",
    "Cppnet.C166_none_partial",
    "Cppnet.C166_same_path_refuted",
    "Cppnet.C166_middleware_refuted"
   ],
   "note": "C166_exact_partial: C166, what holds: if only handlers for exact paths register others, and only for paths without handlers, a request is served as if everything that was registered had been registered after it: the routing table does not change under the handlers, nothing undefined happens, and the table afterwards is the one that the registrations give in their order. Missing: registrations by handlers for prefixes, and for paths that have handlers, see the refutations. | C166_none_partial: C166, handlers that register nothing: the server with pointers serves every request as the model of the other properties says, and its routing table stays as it is. | C166_same_path_refuted: C166 fails: a handler that registers another handler for the path it serves, and does not stop the server, goes on in a loop over a vector that has grown: undefined behaviour. | C166_middleware_refuted: C166 fails: a handler for the prefix `/abc` that registers a handler for `/other` splits the node the search stands at, and the search does not find the way on: the handler of `/abc/x` does not see the request (the sum is 1), although it was registered before, and sees it (1 + 3) if the handler for the prefix registers nothing, or registers for a path that does not split the node. If it registers for `/ab`, the lookup finds the vector of `/abc`, which then grows under the loop: undefined behaviour."
  },
  {
   "property": "C167",
   "status": "partial",
   "theorems": [
    "Cppnet.C167_settings_partial",
    "Cppnet.C167_zero_refuted",
    "Cppnet.C167_windows_refuted",
    "Cppnet.C167_not_positive_refuted",
    "Cppnet.C167_stack_partial",
    "Cppnet.C167_stack_refuted"
   ],
   "note": "C167_settings_partial: C167, what holds on Linux and macOS: each wait of the event loop asks for as many events as were set last, and lasts as many milliseconds as were set last (for ever if that is negative). On macOS the timeout must not be 0. Missing: a timeout of 0 on macOS, both settings on Windows, and a number of events that is not positive: see the refutations. | C167_zero_refuted: C167 fails: with a timeout of 0 the loop on macOS waits for ever, where the one on Linux does not wait. | C167_windows_refuted: C167 fails: on Windows no wait is bounded, whatever was set. | C167_not_positive_refuted: C167 fails: a number of events that is not positive is accepted, and the next wait is undefined (Linux and macOS). | C167_stack_partial: C167, what holds on Linux and macOS if the events of each wait (12 bytes each on Linux, 32 on macOS) fit on the stack: the same as in `C167_settings_partial`. Missing: settings that do not fit, see `C167_stack_refuted`. | C167_stack_refuted: C167 fails: a number of events that does not fit on the stack is accepted, and the next wait is undefined; there is such a number for every stack of up to 24 gigabytes."
  },
  {
   "property": "C168",
   "status": "proved",
   "theorems": [
    "Cppnet.C168_no_starvation",
    "Cppnet.C168_sharp"
   ],
   "note": ""
  },
  {
   "property": "C169",
   "status": "partial",
   "theorems": [
    "Cppnet.C169_exact_partial",
    "Cppnet.C169_last_decides_partial",
    "Cppnet.C169_location_refuted",
    "Cppnet.C169_body_refuted"
   ],
   "note": "C169_exact_partial: C169, exactly what a response is after any calls: its status is the one the last call asked for, its body the last that was given, and each header field has the last value that was given for it, where `Clear` takes everything back. Missing: that the last call alone decides the body and the other fields, which is false, see the refutations. | C169_last_decides_partial: C169, when the last call alone decides: whatever helpers were called before, with `Redirect` and header fields only before the last `Clear`, a call that gives a status, a type and a body leaves the response, and so the text that is sent, as if it had been the only call. Missing: calls that give no body, and fields that earlier calls left, see the refutations. | C169_location_refuted: C169 fails: a handler that answers `Success` after another one redirected sends the address of the redirection along. | C169_body_refuted: C169 fails: `Success(type)` with an empty body after `NotFound` sends the page of the error with status 200, although the same call alone sends an empty body."
  },
  {
   "property": "C170",
   "status": "partial",
   "theorems": [
    "Cppnet.C170_reaches_partial",
    "Cppnet.C170_closed_partial",
    "Cppnet.C170_copies_refuted",
    "Cppnet.C170_init_again_refuted"
   ],
   "note": "C170_reaches_partial: C170, exactly: after whatever calls, assignments and copies, a system call made through a socket reaches the connection the socket was made for if and only if no `Close` (through whichever copy) has reached that connection yet; a socket that was given none reaches none. | C170_closed_partial: C170: each connection is closed at most once, and is open as long as it was not closed; nothing but `Close` closes it, not the end of a variable or an assignment to it either. | C170_copies_refuted: C170 is false: a socket is copied (as for a callback), the copy is closed, the number goes to the next connection; then `Close` on the first socket succeeds and closes that connection, and a write through its own socket reaches nothing. | C170_init_again_refuted: C170 is false: `Init` on a socket that is open loses the first descriptor: it is open, and no variable knows it."
  },
  {
   "property": "C171",
   "status": "partial",
   "theorems": [
    "Cppnet.C171_posix_partial",
    "Cppnet.C171_windows_partial",
    "Cppnet.C171_windows_refuted",
    "Cppnet.C171_negative_refuted"
   ],
   "note": "C171_posix_partial: C171, on Linux and macOS: after whatever calls, `SetReadTimeout` (`SetWriteTimeout`) succeeds exactly if the microseconds are less than a million; then reads (writes) wait as long as it says, zero meaning for ever; otherwise nothing changes. The other waiting time is never changed. | C171_windows_partial: C171, on Windows: the seconds are taken for milliseconds and the microseconds for nothing, and the call says that it succeeded. | C171_windows_refuted: C171 is false: on Windows no timeout but zero is what was asked for. | C171_negative_refuted: C171 is false on Linux for negative seconds: the call succeeds and reads do not wait at all (macOS refuses)."
  },
  {
   "property": "C172",
   "status": "partial",
   "theorems": [
    "Cppnet.C172_get_partial",
    "Cppnet.C172_absent_partial",
    "Cppnet.C172_absent_refuted",
    "Cppnet.C172_search_partial"
   ],
   "note": "C172_get_partial: C172, `Get<T>` of a key that was stored: the pointer stored last if it was stored with the type `T`, the exception if it was stored with another. | C172_absent_partial: C172, `Get<T>` of a key that was not stored and that no stored key extends: the null pointer. | C172_absent_refuted: C172 is false: with one value, of type 1, under \"hello\", `Get` with another type of the key \"hel\", under which nothing was stored, throws. | C172_search_partial: C172, `Search<T>`: the callback gets the pointers stored under the prefixes of the key, shortest first, until it asks to stop; at the first one that was stored with another type the call throws, and the callback is not called any more."
  },
  {
   "property": "C173",
   "status": "partial",
   "theorems": [
    "Cppnet.C173_accept_partial",
    "Cppnet.C173_leave_partial",
    "Cppnet.C173_task_partial",
    "Cppnet.C173_messages_partial",
    "Cppnet.C173_multiplexed_partial",
    "Cppnet.C173_unknown_refuted",
    "Cppnet.C173_closed_refuted",
    "Cppnet.C173_reset_refuted",
    "Cppnet.C173_error_refuted"
   ],
   "note": "C173_accept_partial: **C173** (the beginning). Whatever happens on a connection whose peer is known when it is accepted, in the I/O multiplexing mode: the first message about it names its peer and its descriptor, and no other message says that it was accepted (whatever the client sends: the messages about its requests begin otherwise). | C173_leave_partial: **C173** (the end). If the server answers all the requests of a connection and then its peer leaves, the log of the connection ends with a message that names the same peer, provided that the system still knows it, and no other message says that it was left. | C173_task_partial: **C173** (the multi-thread mode). Each connection that was handed to a worker has exactly one message that says that it was left, the last one, whatever the client sent; it names the peer if the system still knows it. A connection whose peer is known in the beginning has exactly one message that says that it was accepted, the first one. | C173_messages_partial: **C173** (all of a connection's messages, the multi-thread mode): the one about its beginning, those about its requests one after the other, the one about its end. | C173_multiplexed_partial: **C173** (all of a connection's messages, the I/O multiplexing mode, when its requests are answered and then its peer leaves). | C173_unknown_refuted: **C173 is false** for a connection whose peer the system does not know when it is accepted (it was reset at once): in the I/O multiplexing mode the only message about it is an error with the system's text; in the multi-thread mode a message follows that says it was left, although none said that it came. | C173_closed_refuted: **C173 is false** for a connection that the server itself closes in the I/O multiplexing mode (here after a request that it cannot read): no message says that it was left. | C173_reset_refuted: **C173 is false** after a reset: the system does not know the peer any more, and the message says \"leave from 0.0.0.0:0\" of every such connection. | C173_error_refuted: **C173 is false** for a connection that fails: the message about it is the error text of the server, which says nothing about the connection (and is empty if nothing failed before)."
  },
  {
   "property": "C174",
   "status": "partial",
   "theorems": [
    "Cppnet.C174_served_partial",
    "Cppnet.C174_body_refuted",
    "Cppnet.C174_interrupted_refuted",
    "Cppnet.C174_between_refuted",
    "Cppnet.C174_bodiless_partial",
    "Cppnet.C174_client"
   ],
   "note": "C174_served_partial: C174, what holds: when every signal that comes with the request's header restarts interrupted calls, and none comes between the first and the last byte of its body, the request is served as if no signal had come. Missing: signals whose handlers do not restart calls, and signals while the body is read (both refuted). | C174_body_refuted: C174 is false: a signal that comes while the body is read, even one whose handler restarts interrupted calls, makes the server call the handler with the part of the body that had come; the rest of the body is left to be read as the next request. | C174_interrupted_refuted: C174 is false: a signal whose handler does not restart interrupted calls, at any moment before the header is complete, makes the server close the connection without an answer (or die of the exception of C34), whatever would have come. | C174_between_refuted: C174 is false: a signal whose handler does not restart interrupted calls, between the header and the first byte of the body, makes the server close the connection without an answer; no handler is called. | C174_bodiless_partial: C174, what holds of requests without a body: whatever signals come, the server does what it would have done without them, or it closes the connection and has called no handler and written nothing. Missing: requests with a body, and the second case (both refuted)."
  },
  {
   "property": "C175",
   "status": "partial",
   "theorems": [
    "Cppnet.C175_text_refuted",
    "Cppnet.C175_file_refuted",
    "Cppnet.C175_misuse_refuted",
    "Cppnet.C175_documented_partial",
    "Cppnet.C175_success_partial",
    "Cppnet.C175_codes_partial"
   ],
   "note": "C175_text_refuted: **C175 is false** of everything that reads or writes the text of a message, and of `HttpClient::Send`: whatever the object and the text are, they return 0 or -2, and never the -1 that the documentation names; a program that compares with -1 takes every failure for a success. | C175_file_refuted: **C175 is false** of the functions on files: a file that is not there, or that may not be opened, gives -2. | C175_misuse_refuted: **C175 is false** of calls at the wrong time: the loop of a server that was not initialised and `Run`, `WakeUp` of a running server, the second initialisation of a context and the TLS server in the mixed mode. | C175_documented_partial: **C175** (the calls that keep to the documentation): `Init` of both servers whatever the system answers; `Init` of an address by its text or its name; `File::Create` when it does not throw; `Init`, `Listen`, `Bind`, `Connect`, `Close`, `GetAddr` and the options of a socket and `HttpClient::Init`, when the system answers 0 or -1 as it documents. | C175_success_partial: **C175** (what success means): a call on a socket reports success exactly if the object is in use where that is asked, and every system call it needs has succeeded. | C175_codes_partial: **C175** (what does hold everywhere): success is 0 and every failure is one of the three negative codes, so that \"less than 0\" is the test that never errs."
  },
  {
   "property": "C176",
   "status": "partial",
   "theorems": [
    "Cppnet.C176_callbacks_partial",
    "Cppnet.C176_accept_partial",
    "Cppnet.C176_loop_partial",
    "Cppnet.C176_no_mux_partial",
    "Cppnet.C176_calls_partial",
    "Cppnet.C176_connection_refuted",
    "Cppnet.C176_watch_refuted",
    "Cppnet.C176_add_refuted"
   ],
   "note": "C176_callbacks_partial: **C176** (which callbacks the messages belong to): the loop with messages makes the callbacks of the loop without, in the same order, and ends as it does. | C176_accept_partial: **C176** (connections that cannot be accepted): if the acceptance of connections is all that fails while the loop runs, then every callback with an error event finds the message of the failure that it is called for. | C176_loop_partial: **C176** (a loop that fails): when the loop returns an error, the message is the system's text for the wait that failed. | C176_no_mux_partial: **C176** (a server that listens and has nothing to wait with): `EventLoop` says so and does not begin, except in the mode with one thread per connection, which needs nothing; a server that has both leaves the message as it was. | C176_calls_partial: **C176** (calls at the wrong time, and `WakeUp`): a loop that does not begin, and a `WakeUp` that fails, leave the reason in the message. | C176_connection_refuted: **C176 is false** for a connection that fails: whatever has happened to it, the callback finds the message that was there before. | C176_watch_refuted: **C176 is false** for a connection that was accepted but cannot be watched (the limit on watched descriptors is reached): the message is `[syserr]:` and nothing behind it. | C176_add_refuted: **C176 is false** of `AddSoc`: when the system refuses, the call fails and the message is the one that was there before."
  },
  {
   "property": "C177",
   "status": "partial",
   "theorems": [
    "Cppnet.C177_waits_refuted",
    "Cppnet.C177_run_refuted",
    "Cppnet.C177_order_partial",
    "Cppnet.C177_free_partial",
    "Cppnet.C177_leaves_partial",
    "Cppnet.C177_mixed_partial",
    "Cppnet.C177_returns_partial"
   ],
   "note": "C177_waits_refuted: **C177 is false** in the multi-thread mode, for every number of workers: when as many clients as there are workers are connected and idle, a client that connects then waits for as long as they stay, whatever anybody else does. | C177_run_refuted: **C177 is false** for `Run`, in the multi-thread mode: one client is connected and idle, `Stop` was called and has returned, and the listening socket is closed. `Run` does not return for as long as this client stays. | C177_order_partial: **C177** (what holds): the connections (or, in the mixed mode, the reports) are begun in the order in which they were accepted, and never more of them at a time than there are workers. | C177_free_partial: **C177** (what holds): whenever fewer tasks are at work than there are workers and the server was not stopped, a connection that waits can be begun at once. | C177_leaves_partial: **C177** (what holds): when one of the idle clients leaves, the connection that has waited longest is begun, by steps of the task of the client that left and of its worker alone. | C177_mixed_partial: **C177** (what holds in the mixed mode): a client that sends nothing costs no worker: there are tasks only for connections that were reported as readable. | C177_returns_partial: **C177** (what holds of `Run`): once a call of `Stop` has returned and no worker is busy, `Run` needs nobody else to return: neither a client, a worker nor another call of `Stop`. (It may wait in `accept` when the connection of `Stop` to itself failed: see C25.)"
  },
  {
   "property": "C178",
   "status": "partial",
   "theorems": [
    "Cppnet.C178_parse_partial",
    "Cppnet.C178_request_refuted",
    "Cppnet.C178_request_header_partial",
    "Cppnet.C178_request_header_refuted",
    "Cppnet.C178_route_partial",
    "Cppnet.C178_route_refuted",
    "Cppnet.C178_build_refuted",
    "Cppnet.C178_build_partial",
    "Cppnet.C178_response_build_refuted",
    "Cppnet.C178_helpers_partial",
    "Cppnet.C178_helpers_refuted"
   ],
   "note": "C178_parse_partial: **C178** (what holds of `Parse`): a response can be parsed from any text it holds, a header from the value of any of its entries, and a request from any of its parameters. | C178_request_refuted: **C178 is false** for `HttpReq::Parse(req.body())`: the request line is cut from the body that was just stored. Every request without a body that could be parsed from a copy is rejected. | C178_request_header_partial: **C178** (what holds of `HttpReq::Parse` and a header): a request can be parsed from one of its own header values if the text does not name that header again with another value. | C178_request_header_refuted: **C178 is false** for `HttpReq::Parse(req.header()[k])`: if the text names the header `k` itself, the text is replaced while it is parsed, and the call throws. | C178_route_partial: **C178** (what holds of a route): a route can be parsed from one of its own parameters if the text does not change that parameter. | C178_route_refuted: **C178 is false** for `HttpRoute::Parse(route[k])`: a text that names the parameter `k` itself is replaced before its path is cut off. | C178_build_refuted: **C178 is false** for `HttpReq::Build(req.body())`: the body is overwritten with the request line and the headers, and these are appended to themselves. The result is the text that a copy would have given only if the body was this head already. | C178_build_partial: **C178** (what holds of `HttpReq::Build`): it can put its text into one of the parameters of the request. | C178_response_build_refuted: **C178 is false** for `HttpResp::Build(resp.body())`: the body is cleared, what is announced is the length of the status line, and the text is twice the status line with the headers. The body is lost. | C178_helpers_partial: **C178** (what holds of `POST` and the helpers of a response): they can be given any text of the object itself, except for the body or the content type in `Redirect` and the content type in `BadRequest` and `InternalServerError`. | C178_helpers_refuted: **C178 is false** for these: a redirect to the text of the body goes to the HTML page that `Redirect` itself stores, and the body of an error that shows the content type shows `text/html`."
  },
  {
   "property": "C179",
   "status": "partial",
   "theorems": [
    "Cppnet.C179_firings_partial",
    "Cppnet.C179_calls_partial",
    "Cppnet.C179_level_refuted",
    "Cppnet.C179_edge_refuted",
    "Cppnet.C179_mixed_refuted"
   ],
   "note": "C179_firings_partial: **C179** (what holds): in the mode without threads, level- or edge-triggered, with a callback that reads the timer as a `TimerSocket`, for all times of the waits and the reads: the numbers that the callbacks get add up to at least the firings until each wait and to no more than the firings until the last read; every call gets at least one firing, and no read waits (it ends at the time it began). | C179_calls_partial: **C179** (what holds): such a callback is not called more often than the timer fires. | C179_level_refuted: **C179 is false** for a callback that reads from the `Socket` that it is given, as that of the README's server does: level-triggered (the default), after one firing it is called in every round, as often as the loop goes round. | C179_edge_refuted: **C179 is false** for that callback edge-triggered: it is called at most once, however often the timer fires. | C179_mixed_refuted: **C179 is false** in the mixed mode (level-triggered): before the task of the first report has read, the loop reports the timer `n` times, and `n` tasks are queued for one firing. Their reads end only with the following firings: the last of them keeps its worker for `n - 1` periods."
  },
  {
   "property": "C180",
   "status": "partial",
   "theorems": [
    "Cppnet.C180_order_partial",
    "Cppnet.C180_level_partial",
    "Cppnet.C180_edge_partial",
    "Cppnet.C180_edge_refuted",
    "Cppnet.C180_nul_refuted",
    "Cppnet.C180_zero_refuted"
   ],
   "note": "C180_order_partial: **C180** (what holds): as long as the client stays, whatever the trigger, the lengths of the pieces and the order of events: the results of the reads add up to the number of bytes that were read, in order, and the texts are those bytes if no zero byte is among them; nothing is lost, doubled or moved. (`rest` is what was not read yet.) | C180_level_partial: **C180** (what holds), level-triggered (the default): however short the pieces, after as many rounds as bytes are waiting everything has been read. | C180_edge_partial: **C180** (what holds), edge-triggered with a callback that reads until nothing is left: after every round everything that was sent until then has been read. | C180_edge_refuted: **C180 is false** edge-triggered for the callback of the README, which reads once: of a text that is longer than `len` it gets a piece of at most `len` bytes, however often the loop goes round; the rest waits until the client sends more. | C180_nul_refuted: **C180 is false** for a text with a zero byte: the piece ends there, and what follows it in the piece is never seen. | C180_zero_refuted: **C180 is false** for pieces of no bytes (the README's `msg.size()` of an empty `msg`): nothing is ever read, and level-triggered the callback is called in every round."
  },
  {
   "property": "C181",
   "status": "proved",
   "theorems": [
    "Cppnet.C181_same",
    "Cppnet.C181_file",
    "Cppnet.C181_dir",
    "Cppnet.C181_refused"
   ],
   "note": ""
  },
  {
   "property": "C182",
   "status": "partial",
   "theorems": [
    "Cppnet.C182_same_partial",
    "Cppnet.C182_exist_partial",
    "Cppnet.C182_file_partial",
    "Cppnet.C182_dir_partial",
    "Cppnet.C182_static_refuted",
    "Cppnet.C182_create_partial",
    "Cppnet.C182_create_refuted",
    "Cppnet.C182_remove_partial",
    "Cppnet.C182_remove_refuted"
   ],
   "note": "C182_same_partial: **C182** (what holds): when nothing changes the functions of this model are those of the other models. | C182_exist_partial: **C182** (what holds) for `File::Exist` as the handlers call it: it says yes only if there was something at its first system call and a regular file at its second, and then always; and if it throws, one of the two calls failed. | C182_file_partial: **C182** (what holds) for `StaticFile`: whatever others do, the answer is the one for the file system as it was at one of the three times at which it was asked, or 404 because the file was gone when it was to be opened; unless there was something that is not a regular file then. | C182_dir_partial: **C182** (what holds) for `StaticDir`, for a path that leads to `dir/rest`. | C182_static_refuted: **C182 is false** for `StaticFile`: a file that is replaced by a directory between `Exist` and `Read` makes the handler throw (which ends the program, C133), although it answers both when there is the file and when there is the directory. | C182_create_partial: **C182** (what holds) for `Create`, if others leave this name alone (whatever they do elsewhere): when it returns success a file that was there still has its content, and a file that was not is there and empty. | C182_create_refuted: **C182 is false** for `Create`: what another program writes into the file between the check and the open is lost, and `Create` reports success. So two programs that begin to log to the same new file can lose the first lines of one of them. | C182_remove_partial: **C182** (what holds) for `Remove`: it removes nothing but what is under this name. | C182_remove_refuted: **C182 is false** for `Remove`: a directory that takes the file's place (and is empty) is removed, with success, although `Remove` leaves directories alone; and when another program has removed the file already `Remove` reports an error."
  },
  {
   "property": "C183",
   "status": "partial",
   "theorems": [
    "Cppnet.C183_same_partial",
    "Cppnet.C183_plain_partial",
    "Cppnet.C183_remove_partial",
    "Cppnet.C183_dangling_refuted",
    "Cppnet.C183_refused_refuted",
    "Cppnet.C183_circle_refuted",
    "Cppnet.C183_create_partial",
    "Cppnet.C183_static_partial"
   ],
   "note": "C183_same_partial: **C183** (what holds): if two paths lead to the same place, every function but `Remove` does the same for both. So a link stands for what it points to. | C183_plain_partial: **C183** (what holds): in a tree without links and closed directories all functions are those of `Model/File`, for which C97 to C101 and C143 are proved. | C183_remove_partial: **C183** (what holds): `Remove` of a path that leads to a file removes the last name of the path in the directory where the others lead, and nothing else; if this name is a link, the file it leads to keeps its content. | C183_dangling_refuted: **C183 is false** for links to names that are free: `Exist` says no and `Remove` reports success, but the link is still there; after `Create` the file is somewhere else. | C183_refused_refuted: **C183 is false** for names that lead through a closed directory or in a circle: `Exist`, `IsFile`, `IsDir`, `CanWrite`, `Create` and `Remove` throw, and so does the start of a `FileLogger`; `Read`, `Write` and `Append` report an error, and `LineCount` is 0. | C183_circle_refuted: **C183**: a link that leads to itself, and a name in a closed directory, are such names, in every tree. | C183_create_partial: **C183** (what holds) for `Create` below a link to a directory: the missing directory is made where the link leads, and the file in it; nothing else changes. | C183_static_partial: **C183** (what holds) for `StaticFile`: it serves what the link leads to."
  },
  {
   "property": "C184",
   "status": "proved",
   "theorems": [
    "Cppnet.C184_registry",
    "Cppnet.C184_same_answer"
   ],
   "note": ""
  },
  {
   "property": "C185",
   "status": "partial",
   "theorems": [
    "Cppnet.C185_once_partial",
    "Cppnet.C185_progress_partial",
    "Cppnet.C185_stop_partial",
    "Cppnet.C185_destroy_partial",
    "Cppnet.C185_none_refuted",
    "Cppnet.C185_again_refuted",
    "Cppnet.C185_resize_refuted",
    "Cppnet.C185_constructor_refuted",
    "Cppnet.C185_constructor_partial"
   ],
   "note": "C185_once_partial: **C185**, however many threads are refused, to however many calls: what was accepted is queued, in the hands of one worker or finished, and nothing is run twice. | C185_progress_partial: **C185**: as long as there is a worker without a task, the first task of the queue can be taken, by steps of the pool and the calls already begun alone. | C185_stop_partial: **C185**, with one controlling thread: `Stop` waits for the threads that were started; when it returns no worker has a task, and the accepted tasks are the finished ones and those still in the queue. | C185_destroy_partial: **C185**: and a pool that was refused threads by its one `Init` can be stopped and destroyed: the program is not terminated as long as no task throws. | C185_none_refuted: C185 is false of an `Init` that got no thread at all: it throws, but the pool takes itself for initialised. `AddTask` accepts a task and returns 0, and whatever any thread does afterwards short of starting threads, the task is never run. | C185_again_refuted: C185 is false of a second `Init`, after the first got some of its threads: it terminates the program. | C185_resize_refuted: C185 is false of `Resize` to the number that was asked for: it returns at once, and there are as few threads as before. | C185_constructor_refuted: C185 is false of the constructor with a number: a refusal after the first thread terminates the program, whatever the threads already started have done meanwhile; the caller has nothing to catch. | C185_constructor_partial: C185, the constructor with a number, when the first thread is refused: the caller gets the exception, the members are destroyed and the program goes on. Missing: later refusals, see `C185_constructor_refuted`."
  },
  {
   "property": "C186",
   "status": "partial",
   "theorems": [
    "Cppnet.C186_order_partial",
    "Cppnet.C186_second_partial",
    "Cppnet.C186_file_partial",
    "Cppnet.C186_back_refuted",
    "Cppnet.C186_twice_refuted",
    "Cppnet.C186_year_refuted"
   ],
   "note": "C186_order_partial: **C186**, the order, if the clocks on the wall are not set back between the two calls (`z t\u2081 \u2264 z t\u2082`; so always in a zone without summer time): of two calls at different seconds the earlier one gets the time that sorts first. (Missing: a clock that is set back, see `C186_back_refuted`; years with more than four digits, see `C186_year_refuted`.) | C186_second_partial: **C186**, the second: in a zone whose clocks are never changed, the text tells the second of the call, in every year of four digits. (Missing: the hour that is shown twice when the clocks are set back, see `C186_twice_refuted`.) | C186_file_partial: **C186**, the log file: if the clock does not go back and the zone's clocks are never changed, then at every moment until the first `Stop` returns, what the logger has added to the file is lines with times that never go back. (Every line is that of a call `(level, time, text)`; no file operation fails. Missing: the lines that `Stop` itself writes, see `C56_order_refuted`.) | C186_back_refuted: **C186**, refuted: whenever the clocks on the wall are set back by more than the time between two calls (the end of summer time, in whatever year of four digits), the later line carries the time that sorts first. | C186_twice_refuted: **C186**, refuted: the hour before the clocks are set back by an hour is shown twice, each second of it by two seconds of the clock. | C186_year_refuted: **C186**, refuted: from the year 10000 on, whatever the zone: every line of the years 10000 to 19999 carries a time that sorts before that of every line of the years 2000 to 9999."
  },
  {
   "property": "C187",
   "status": "partial",
   "theorems": [
    "Cppnet.C187_first_partial",
    "Cppnet.C187_running_refuted",
    "Cppnet.C187_memory_refuted",
    "Cppnet.C187_memory_partial"
   ],
   "note": "C187_first_partial: **C187**, before the first successful `Init`: calls of `Init` that failed do no harm, whatever their files. When `Init p` then succeeds and `Stop` or the destructor has returned, the file `p` holds what it held, followed by every line logged, each once, and no other file has changed. (`before`: only failed calls of `Init`, and messages ignored; `log`: neither `Init` nor a write that the system cut short. Missing: an `Init` that fails while the logger runs, see `C187_running_refuted`.) | C187_running_refuted: **C187**, refuted: whatever the two files, if a running logger is told to use a file that cannot be written, `Init` says so (-1), and yet the logger has taken over the name: the line logged before, still in its buffer, never reaches the file of the logger, nor any other. | C187_memory_refuted: **C187**, refuted: if `Init` runs out of memory, or is given a negative buffer size (`made = 1`), before the last of its buffers has been made, `Stop`, and so the destructor, follows a null pointer. | C187_memory_partial: **C187**, what holds: if only the size of the last buffer is missing, `Stop` returns."
  },
  {
   "property": "C188",
   "status": "partial",
   "theorems": [
    "Cppnet.C188_destroy_partial",
    "Cppnet.C188_clean_partial",
    "Cppnet.C188_again_partial",
    "Cppnet.C188_mixed_refuted",
    "Cppnet.C188_again_refuted"
   ],
   "note": "C188_destroy_partial: **C188**, multi-thread mode: if the system refuses a thread while a new server starts, the destructor returns, and every descriptor is as it was before `Init`. (The threads that did start end with the pool: `C185_destroy_partial`. Missing: the mixed mode, see `C188_mixed_refuted`.) | C188_clean_partial: **C188**, both modes: if `Clean` is called after the refusal, the destructor returns, and every descriptor is as it was. | C188_again_partial: **C188**, starting again: after the refusal and `Clean`, `Init` makes the same system calls, and returns the same, as if there had been no first attempt. | C188_mixed_refuted: **C188**, refuted for the mixed mode: whenever a new server in mixed mode is refused a thread, its `Stop`, and so its destructor, follows a null pointer. | C188_again_refuted: **C188**, refuted: if `Init` is called again without `Clean`, the socket of the first attempt stays open for ever, also when the server is destroyed."
  },
  {
   "property": "C189",
   "status": "partial",
   "theorems": [
    "Cppnet.C189_key_partial",
    "Cppnet.C189_client_refuted",
    "Cppnet.C189_own_refuted",
    "Cppnet.C189_given_partial"
   ],
   "note": "C189_key_partial: **C189**, what holds of `HttpClient::InitSSL`: it succeeds only if the peer has the key of the certificate that it shows. Missing: that the certificate is to be believed and is for the host that was asked for, see the refutation. | C189_client_refuted: **C189**, refuted for `HttpClient::InitSSL`: it succeeds whoever answers, with whatever certificate (self-signed, expired, for another name), and the client has no call that would change this. | C189_own_refuted: **C189**, refuted also for a `SSLContext` that made its context itself, by `InitCli`, `InitSvr` or `InitSvrFile`, whatever was called before: a socket that it creates connects to whoever answers. | C189_given_partial: **C189**, what holds of a `SSLContext` that was given contexts by its user (`Init`): if all of them verify the peer and ask for the name `host`, then after any calls of `Init` and `Close` a socket of it connects only to `host`."
  },
  {
   "property": "C190",
   "status": "partial",
   "theorems": [
    "Cppnet.C190_next_call_partial",
    "Cppnet.C190_quiet_refuted",
    "Cppnet.C190_clock_refuted"
   ],
   "note": "C190_next_call_partial: **C190**, what holds: a logging call makes the logger write what is old. If a line is logged at time `t`, and then the worker gets round to the tasks it has, all lines are in the file that were logged more than the flush interval before `t`. Missing: that they get there without another call, see the refutation. | C190_quiet_refuted: **C190**, refuted: a message that does not fill its buffer and comes while the buffer counts as fresh stays in memory for as long as nothing else is logged, however long ago the flush interval is over, and whatever the worker does. | C190_clock_refuted: **C190**, refuted if the clock of the system is set back (the times here are what `time` says, not true time): as long as it shows no time later than the flush interval after `Init`, nothing is written before a buffer is full, however many messages are logged and however long that takes."
  },
  {
   "property": "C191",
   "status": "partial",
   "theorems": [
    "Cppnet.C191_same_partial",
    "Cppnet.C191_write_partial",
    "Cppnet.C191_write_refuted",
    "Cppnet.C191_append_partial",
    "Cppnet.C191_append_single_partial",
    "Cppnet.C191_append_refuted",
    "Cppnet.C191_write_again_partial",
    "Cppnet.C191_remove",
    "Cppnet.C191_create_partial"
   ],
   "note": "C191_same_partial: **C191**, the calls of this model, when nobody dies, are the functions of C97 to C100. | C191_write_partial: **C191**, what holds of `Write`: whenever the program dies, the file is as it was before or holds a beginning of the new data, and all other files are as before. Missing: that it holds all of it, see the refutation. | C191_write_refuted: **C191**, refuted for `Write`: for every file that is not empty there is a moment at which a crash leaves nothing of it, neither the old content nor the new. | C191_append_partial: **C191**, what holds of `Append` to a file: whenever the program dies, the file holds all that it held before, and behind it a beginning of the new data; all other files are as before. Missing: that it is all of it or nothing, see the refutation. | C191_append_single_partial: **C191** holds of `Append` to a file if the stream hands over the data in one piece (libstdc++ does, and so a line of the logs is not torn if the system takes it as a whole). | C191_append_refuted: **C191**, refuted for `Append` if the data is handed over in several pieces: a crash between them leaves a part. | C191_write_again_partial: **C191**, what holds of `Write` after a restart: writing again gives the same as if the program had not died. | C191_create_partial: **C191**, what holds of `Create`: whenever the program dies, calling `Create` again gives what `Create` would have given, and nothing but the file and the directories that lead to it has changed meanwhile."
  },
  {
   "property": "C192",
   "status": "partial",
   "theorems": [
    "Cppnet.C192_done_partial",
    "Cppnet.C192_status_partial",
    "Cppnet.C192_refused_partial",
    "Cppnet.C192_failed_refuted",
    "Cppnet.C192_stop_refuted"
   ],
   "note": "C192_done_partial: **C192**, what holds: if the web server did what it was asked to do, its exit status is 0. Missing: that it is another one if it did not, see the refutations. | C192_status_partial: **C192**, what holds of failures: the status is not 0 exactly if the configuration was read and the parser refuses it, and the program is aborted exactly if reading the pid file or the configuration throws. | C192_refused_partial: **C192** holds for a configuration that can be read and that the parser refuses: the status is 255 and no server runs. | C192_failed_refuted: **C192**, refuted: a configuration file that is not there, a certificate that cannot be used, an address that is taken and a static file that is missing all give the status 0, although no server runs. | C192_stop_refuted: **C192**, refuted for `-stop`: if the pid file holds no number above 66 nobody is signalled, and the status is 0."
  },
  {
   "property": "C193",
   "status": "partial",
   "theorems": [
    "Cppnet.C193_lost_partial",
    "Cppnet.C193_last_refuted",
    "Cppnet.C193_behind_refuted"
   ],
   "note": "C193_lost_partial: **C193**, what holds: whenever the program dies, the lines in the file are the first of those that were logged, in their order; the lost ones are the last. If the worker has nothing left to do they are no more than one buffer takes. Missing: that none is lost, and a bound for a worker that is behind, see the refutations. | C193_last_refuted: **C193**, refuted: when a logging call (`Fatal` too) has returned, its message is not in the file yet, whatever was logged before; it is lost if the program dies before the worker has run. | C193_behind_refuted: **C193**, refuted for a worker that is behind: there is no bound on what is lost, whatever the settings."
  },
  {
   "property": "C194",
   "status": "partial",
   "theorems": [
    "Cppnet.C194_kept_partial",
    "Cppnet.C194_throws_partial",
    "Cppnet.C194_lost_refuted",
    "Cppnet.C194_missed_refuted",
    "Cppnet.C194_reset_refuted"
   ],
   "note": "C194_kept_partial: **C194**, if it is never a text that cannot be made (no key is longer than what fits into a `std::string` itself): whatever calls of a history run out of memory, at whatever node or value, the trie holds exactly what the calls that have returned have stored. `Search` finds that and nothing else, and `Get` and `Check` find every stored key; and a call with enough memory returns. (Missing: texts, see `C194_lost_refuted` and `C194_missed_refuted`; a `Reset` that runs out of memory, see `C194_reset_refuted`.) | C194_throws_partial: **C194** (the call itself), under the same condition: a `Set` that throws has changed nothing that `Search` could find, and every stored key is still there. | C194_lost_refuted: **C194**, refuted for texts: two keys part after their first bytes `p` (more than a `std::string` holds itself, 15 bytes in the GNU library). If the `Set` of the second cannot make the text `p` (the second text of its fork), it throws, and the first key is lost. | C194_missed_refuted: **C194**, refuted for texts: there is a key `a`. If the `Set` of a key `a b r` cannot make the text of the new node, it throws; the `Set` of `a b` afterwards returns, `Get` finds its value, but `Search` does not: it only finds that of `a`. | C194_reset_refuted: **C194**, refuted for `Reset`: whatever the history, if there is no memory for the new root, `Reset` throws after it has deleted everything, and the trie still refers to the root it had: its destructor, and every `Get` before, uses memory that is freed."
  },
  {
   "property": "C195",
   "status": "partial",
   "theorems": [
    "Cppnet.C195_ways_partial",
    "Cppnet.C195_once_partial",
    "Cppnet.C195_shared_refuted",
    "Cppnet.C195_cycle_refuted",
    "Cppnet.C195_init_partial"
   ],
   "note": "C195_ways_partial: **C195**, what holds if no `MultiLogger` contains itself, directly or through others (`rank`), and there are no null pointers: a message reaches a logger once for each way that leads to it, in the order of the lists, and each logger applies its own level; the calls need no more stack than the deepest nesting. Missing: `MultiLogger`s that contain themselves, see `C195_cycle_refuted`; that it is once, see `C195_shared_refuted`. | C195_once_partial: **C195**, when it is once: if moreover no logger is given to two `MultiLogger`s, or twice to one, a message reaches each logger at most once. Missing: loggers that are shared, see `C195_shared_refuted`. | C195_shared_refuted: **C195** is false of loggers that are shared: with `n` `MultiLogger`s above each other, each given the one below twice, a logger gets each message 2 ^ n times. | C195_cycle_refuted: **C195** is false of a `MultiLogger` that contains itself, directly or through others, or that contains such a one: every message overflows the stack, however large it is. | C195_init_partial: **C195**, `Init` on a `MultiLogger` that has loggers already, none of which, old or new, contains it: from then on a message goes to the old ones as before, and then to the new ones; and all other loggers that do not contain it do what they did."
  },
  {
   "property": "C196",
   "status": "partial",
   "theorems": [
    "Cppnet.C196_routes_partial",
    "Cppnet.C196_enough",
    "Cppnet.C196_lost_refuted",
    "Cppnet.C196_later_refuted"
   ],
   "note": "C196_routes_partial: **C196**, if it is never a text that cannot be made (no part of a route is longer than what fits into a `std::string` itself): after any history of registrations, of which any have thrown at any object they were to make, one more registration never faults. If it throws, every request is then answered exactly as before the call; if it returns, every request is answered exactly as if the call had had all the memory it wants; and with enough memory it returns. (Missing: texts, `C196_lost_refuted`; later registrations, `C196_later_refuted`.) | C196_lost_refuted: **C196**, refuted for texts: two routes with a long part in common. The registration of the second throws where it cannot make the text of that part, and requests for the first are then no longer answered by its handler. | C196_later_refuted: **C196**, refuted for registrations that come later: a registration that throws changes what a later one does. `/hello` is registered, then `/hel`: without anything in between the handler of `/hel` lands in the list of `/hello`; if a registration of `/helm` has thrown in between, it is a route of its own."
  },
  {
   "property": "C197",
   "status": "partial",
   "theorems": [
    "Cppnet.C197_kept_partial",
    "Cppnet.C197_room_refuted"
   ],
   "note": "C197_kept_partial: **C197**: whatever logging calls run out of memory, when they make their line, a further buffer or the task that flushes a buffer, and whatever the schedule of the worker and the clock: when `Stop` or the destructor has returned, the file holds its previous content followed by every line that was logged, each exactly once. (Missing: memory that runs out when the text of a new buffer is made, see `C197_room_refuted`.) | C197_room_refuted: **C197**, refuted if memory runs out when the text of a new buffer is made: the buffer is in the ring and is the current one, but is not counted, so that `Stop` leaves one buffer out. The call for the first line throws; the second line, whose call returns, never reaches the file."
  },
  {
   "property": "C198",
   "status": "partial",
   "theorems": [
    "Cppnet.C198_closed_partial",
    "Cppnet.C198_cycle_refuted"
   ],
   "note": "C198_closed_partial: **C198**, if no `MultiLogger` contains itself, directly or through others (`rank`): when the program gives up its pointers to loggers, of whatever classes, shared or not, every logger is destroyed, exactly once. (Missing: cycles, see `C198_cycle_refuted`.) | C198_cycle_refuted: **C198**, refuted for cycles: whatever loggers there are and whatever pointers the program gives up, a logger in a set of which each is held by a `MultiLogger` in the set, or held by one that is (`m->Init({m, file_logger})`), is not destroyed: a `FileLogger` there never writes the lines that it still holds."
  },
  {
   "property": "C199",
   "status": "partial",
   "theorems": [
    "Cppnet.C199_once_partial",
    "Cppnet.C199_threw",
    "Cppnet.C199_progress_partial",
    "Cppnet.C199_stop_partial",
    "Cppnet.C199_destroy_partial",
    "Cppnet.C199_worker_refuted"
   ],
   "note": "C199_once_partial: **C199**, whatever allocations fail: what was accepted is queued, in the hands of one worker or finished, and nothing is run twice. The pool has accepted one task for each `AddTask` that returned 0, and perhaps the one of a call that is about to return 0; none for a call that threw. | C199_progress_partial: **C199**: as long as there is a worker without a task, the first task of the queue can be taken, by steps of the pool and the calls already begun alone, whatever calls threw before. | C199_stop_partial: **C199**, with one controlling thread: when `Stop` returns no worker has a task, and the accepted tasks are the finished ones and those still in the queue. | C199_destroy_partial: **C199**: calls of `AddTask` that throw never terminate the program: a pool that was initialised once can be used, stopped and destroyed by its controlling thread. | C199_worker_refuted: C199 is false of a worker that runs out of memory when it takes a task: the program is terminated, and the task that `AddTask` accepted is never run."
  }
 ]
}