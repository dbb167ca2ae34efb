# The properties and their theorems

Generated by `tools/report.py` from `properties.jsonl`, `MANIFEST.json` and the docstrings. In brackets after each
theorem: where it is, and the axioms Lean reports for it (P = `propext`, C = `Classical.choice`, Q = `Quot.sound`).
`_refuted`: the code violates the property (or a part of it), here is a witness. `_partial`: the part that holds.

## C01 Split cuts a string exactly at the delimiter — proved

For a non-empty delimiter, StringUtil::Split appends a list of pieces such that re-joining them with the delimiter gives back the original string, no piece contains the delimiter, and every cut is made at the leftmost possible place; with keep_delimiter the plain concatenation of the pieces is the original string. Pieces already in the output vector are kept in front.

Over: all byte strings, all non-empty delimiters, all initial contents of the output vector

* `C01_split` — C01: for a non-empty delimiter, `Split` appends a non-empty list of pieces whose joining is the input, none of which contains the delimiter, cut at the leftmost places. [Verif/Props/Strings.lean:14; QP]
* `C01_split_unique` — C01: these conditions leave only one list of pieces, so `C01_split` determines the result. [Verif/Props/Strings.lean:21; QP]
* `C01_split_keep` — C01: with `keep_delimiter` the concatenation of the pieces is the input; the pieces are the ones without `keep_delimiter`, each but the last with the delimiter appended. [Verif/Props/Strings.lean:27; QP]

## C02 Split terminates — partial

StringUtil::Split returns for every pair of strings.

Over: all byte strings and all delimiters, the empty one included

* `C02_split_terminates_refuted` — C02 as stated is false: with the empty delimiter the loop of `Split` never ends — whatever number of iterations it is given, it has not returned. [Verif/Props/Strings.lean:43; P]
* `C02_split_terminates_partial` — C02, the part that holds: for a non-empty delimiter, `|s| + 1` iterations are enough, and any larger number gives the same result. [Verif/Props/Strings.lean:49; QP]

## C03 URL decoding inverts URL encoding — proved

UrlDecode(UrlEncode(s)) == s for every byte string s.

Over: all byte strings (every byte value, every length)

* `C03_decode_encode` — C03: decoding inverts encoding on every byte string. [Verif/Props/Strings.lean:56; QP]

## C04 URL encoding emits only safe bytes — proved

Every byte UrlEncode emits is an ASCII letter or digit, one of - _ . ~ / = ? & +, or belongs to a complete %XX escape with upper-case hex digits; in particular the result never contains a space, CR, LF, NUL or a byte >= 0x80, and it is at most three times as long as the input.

Over: all byte strings

* `C04_encode_safe` — C04: encoded text consists of plain bytes, `+` and complete upper-case escapes. [Verif/Props/Strings.lean:61; P]
* `C04_encode_bytes` — C04: no byte of encoded text is a control character, a space, DEL or above ASCII; and the text is at most three times as long as the input. [Verif/Props/Strings.lean:65; QP]

## C05 URL decoding follows the percent-encoding rules — partial

For every input whose percent signs all start a complete two-hex-digit escape (either letter case) UrlDecode returns the string with each escape replaced by the byte it denotes, each + by a space and every other byte unchanged; every other input (a truncated or non-hex escape) is rejected with the empty string. UrlDecode never reads outside the string.

Over: all byte strings, well-formed or not

* `C05_decode_partial` — C05, the part that holds: well-formed percent-encoded text is decoded to what it denotes, and the denotation is unique; a lone `%` at the very end of otherwise well-formed text is rejected with the empty string. Missing from the full property: rejection of the other malformed inputs (see the refutation). [Verif/Props/Strings.lean:107; P]
* `C05_decodes_unique` — C05: well-formed text denotes one string only. [Verif/Props/Strings.lean:118; P]
* `C05_rejected_partial` — C05, exactly what is rejected: besides the empty text, the texts that end in a lone `%` (whatever the other escapes are), and no other. [Verif/Props/Strings.lean:187; QP]
* `C05_decode_rejects_malformed_refuted` — C05 as stated is false: truncated and non-hexadecimal escapes are not rejected. `%4` decodes to `@`, `%G0` to NUL and `%zz` to `S`, although none of them is well-formed. [Verif/Props/Strings.lean:196; P]

## C06 WildCardMatch implements glob matching — proved

WildCardMatch(pattern, s) is true exactly when s can be obtained from pattern by replacing every * by some (possibly empty) byte string and every ? by some single byte.

Over: all patterns and all strings below 2^31 - 1 bytes

* `C06_wildcard` — C06: `WildCardMatch` decides glob matching. [Verif/Props/Strings.lean:218; QP]

## C07 File::Suffix returns the text after the last dot of the last path component — proved

File::Suffix(path) is the part of the final path component after its last dot, or empty when that component has no dot; the result never contains a dot or a slash and never throws.

Over: all path strings

* `C07_suffix` — C07: `File::Suffix` never throws and returns the extension of the last path component. [Verif/Props/Strings.lean:227; CQP]

## C08 Trie::Search reports exactly the stored prefixes — proved

After any sequence of Set and Reset calls, Search(key) calls the callback once for each stored key that is a prefix of key, in order of increasing length, with the value most recently stored for it, passing is_last = true only for key itself, and stops right after the first call that returns false.

Over: all histories of Set/Reset with ASCII keys, all search keys, all callbacks

* `C08_search` — C08: after any history of `Set`/`Reset` with ASCII keys, `Search` runs the callback over exactly the stored prefixes of the key, shortest first, with their current values, flagging only the key itself, until the callback asks to stop. The callback is arbitrary (any state, it may throw). [Verif/Props/Trie.lean:15; CQP]

## C09 Trie::Get returns the latest value stored for a key — proved

After any history in which key k was Set and not erased by Reset, Get(k) returns the value of the last Set(k), whatever other keys were stored before or after it.

Over: all histories of Set/Reset with ASCII keys

* `C09_get_stored` — C09: the value stored last for a key is the one `Get` returns, and `Check` sees the key. [Verif/Props/Trie.lean:44; QP]

## C10 Trie::Get and Check find nothing for a key that was never stored — partial

Get(k) returns nullptr and Check(k) returns false whenever k was never Set since the last Reset.

Over: all histories and all keys

* `C10_get_absent_refuted` — C10 as stated is false: after `Set("hello", …)` alone, `Get("hel")` returns that value and `Check("hel")` is true, although "hel" was never stored. [Verif/Props/Trie.lean:62; P]
* `C10_get_exact_partial` — C10, exactly what `Get` returns for a non-empty key: the value of the least stored extension of the key, if there is a stored key that starts with it and that all such keys continue. [Verif/Props/Trie.lean:70; QP]
* `C10_get_absent_partial` — C10, the case in which the property holds: if no stored key extends `k` (other than `k` itself), `Get` and `Check` answer exactly for `k`. [Verif/Props/Trie.lean:81; QP]

## C11 Trie operations are memory safe for every key — partial

Set, Get, Check and Search never index outside the child table and always terminate, whatever bytes the key holds.

Over: all histories and all keys, including bytes >= 0x80

* `C11_ascii_safe_partial` — C11, the part that holds: with ASCII keys no operation faults or diverges (the callback's own faults aside). [Verif/Props/Trie.lean:117; CQP]
* `C11_non_ascii_refuted` — C11 as stated is false: a key whose first byte is ≥ 0x80 makes `Set` and `Get` (on any trie) and `Search` (on any trie without a value at the root) index out of bounds. [Verif/Props/Trie.lean:142; P]
* `C11_non_ascii_inner_refuted` — C11: a non-ASCII byte further inside the key also reaches the out-of-bounds access. [Verif/Props/Trie.lean:156; P]
* `C11_fork_refuted` — C11 as stated is false also of keys that start with an ASCII byte, as every route does: a key with a byte ≥ 0x80 inside is stored, and then the insertion of the part before that byte writes out of bounds. [Verif/Props/Trie.lean:200; QP]

## C12 Trie contents do not depend on insertion order — proved

Two histories that store the same final value for the same keys are indistinguishable by Get, Check and Search; Reset makes the trie indistinguishable from a new one.

Over: all pairs of histories with equal effect

* `C12_order_independent` — C12: histories with the same effect cannot be told apart, whatever the order of insertion. [Verif/Props/Trie.lean:235; CQP]
* `C12_reset` — C12: `Reset` makes the trie equal to a new one. [Verif/Props/Trie.lean:272; QP]

## C13 Method, version and status conversions are mutually inverse — proved

ConvertToMethod/ConvertToVersion/ConvertToCode invert ConvertToStr (and the numeric status value) on every known enumerator, map every other string or integer to UNKNOWN, and accept exactly one spelling per enumerator.

Over: all enumerators, all strings, all ints

* `C13_methods` — C13, methods: each known method is written as its standard name; a text is read as a known method exactly if it is that method's name; everything else is UNKNOWN. [Verif/Props/Header.lean:15; CQP]
* `C13_versions` — C13, versions. [Verif/Props/Header.lean:47; CQP]
* `C13_back` — **C13**, of every enumerator, the unknown ones too: converting to text or number and back gives it again, and -1 is the number of the unknown status alone. [Verif/Props/Header.lean:79; none]
* `C13_statuses` — C13, status codes: number, phrase and enumerator determine each other. [Verif/Props/Header.lean:87; CQP]

## C14 Content types convert back and forth — proved

ConvertToContentType(ConvertToStr(t)) == t for every built-in content type and the content type stored by SetContentType(t) is the one GetContentType reports; a file type registered with SetCustomContentType is reported as custom with exactly the registered string unless it is one of the built-in file types.

Over: all content types, all file-type strings, all registration histories

* `C14_content_types` — C14: names and built-in types convert into each other, and any other name is unknown. [Verif/Props/Header.lean:203; QP]
* `C14_set_get` — C14: the type stored in a header is the one reported, for every built-in type, and no other header changes. [Verif/Props/Header.lean:228; CQP]
* `C14_custom` — C14: after any history of registrations and conversions, a registered suffix without a built-in type is reported as custom and converted to the string registered last. [Verif/Props/Header.lean:240; CQP]
* `C14_default` — C14: a suffix that was neither registered nor used in a conversion to text has the default type. [Verif/Props/Header.lean:252; P]

## C15 Header text round-trips — proved

Parsing the text ToString produced (without its final blank line) into an empty header gives back every key and value, in whatever order the hash map enumerates them, for every header whose keys contain no colon and whose keys and values contain no CR or LF and no value is empty or starts with a space.

Over: all such header maps, all hash-map iteration orders

* `C15_round_trip` — C15: the text of a non-empty header that survives the wire is `t` and a blank line; parsing `t` into an empty header succeeds and gives back the same map. (Parsing with part of the blank line still attached stores the same map, but reports an error.) [Verif/Props/Header.lean:266; CQP]

## C16 Header parsing splits key and value at the first colon and the last duplicate wins — proved

If every CRLF-separated line of the text has a colon, Parse succeeds and Get(k) is the value of the last line whose text before its first colon is k, with leading spaces removed (lines whose value is blank are the subject of C17); if some line has no colon Parse fails with kLogicErr and exactly the lines before it have been stored.

Over: all header texts, all previous header contents

* `C16_header_parse` — C16: let `good` be lines with a colon and a value that is not blank, and let the text be these lines followed by nothing, or by a line without a colon and anything else. Then exactly the good lines are stored: `Get(k)` is the value of the last one named `k`, and what it was before if there is none. The result is success in the first case and a logic error in the second. [Verif/Props/Header.lean:322; CQP]
* `C16_header_parse_empty` — C16: the empty text is rejected and changes nothing. [Verif/Props/Header.lean:347; QP]

## C17 An empty header value is parsed as empty — partial

A header line with nothing but spaces after its colon is stored with the empty value.

Over: all keys, all numbers of spaces

* `C17_blank_value_refuted` — C17 is false for every name and every number of spaces: a line with a blank value is stored with the value `:` followed by those spaces, never the empty value. [Verif/Props/Header.lean:359; CQP]
* `C17_others_partial` — C17, what holds: lines with a blank value, anywhere in the text, do no other harm: Parse succeeds, every name that has no blank-valued line gets the value C16 says, and every name that has a line is there (never lost), a blank-valued last line with a `:` before the spaces. [Verif/Props/Header.lean:381; CQP]

## C18 Content-Length is stored and read back exactly — partial

After SetContentLength(n), GetContentLength() == n for every int n; Build announces the exact number of body bytes for every body.

Over: all 2^32 ints, all bodies

* `C18_content_length` — C18: every `int` is read back after it was stored, and no other header changes. [Verif/Props/Header.lean:428; CQP]
* `C18_announced_partial` — C18, requests: Build announces the exact body length for bodies below 2 GiB … [Verif/Props/Req.lean:212; CQP]
* `C18_announced_refuted` — … and a wrong one for every larger body (the size is narrowed to `int`), so C18 is false. [Verif/Props/Req.lean:220; CQP]
* `C18_announced_resp_partial` — C18, responses: Build announces the exact body length for bodies below 2 GiB … [Verif/Props/Resp.lean:161; CQP]
* `C18_announced_resp_refuted` — … and a wrong one for every larger body. [Verif/Props/Resp.lean:168; CQP]

## C19 GetContentLength is total — proved

GetContentLength never throws; it is -1 when the header is absent or its text has no leading decimal integer fitting an int, and otherwise is the value of the longest leading (optionally signed, optionally white-space prefixed) decimal numeral.

Over: all header values

* `C19_content_length_total` — C19: `GetContentLength` is the value of the leading numeral if there is one in the range of `int`, and -1 otherwise. [Verif/Props/Header.lean:440; QP]

## C20 Cookie lookup returns the value of the first cookie with that name — proved

GetCookieVal(k) returns the text after the first = of the first ;-separated item of the Cookie header whose name (text before the =, leading spaces removed) is k, and the empty string if there is none; it never throws.

Over: all Cookie header texts and keys

* `C20_cookie` — C20: the value of the first `;`-separated item that has a `=` and the asked name. [Verif/Props/Header.lean:465; CQP]
* `C20_cookie_absent` — C20: without a Cookie header the result is empty. [Verif/Props/Header.lean:478; P]

## C21 Route parsing — partial

HttpRoute::Parse of a non-empty target sets the path to the text before the first ?, and for each &-separated item after it stores the URL-decoded text after the item's first = (or the empty value) under the text before it, later items overriding earlier ones; it fails only for the empty target, and never throws.

Over: all targets, all previous parameter contents

* `C21_route_parse_partial` — C21 for targets below 2 GiB: parsing succeeds; the path is the text before the first `?`; without a `?` the parameters stay as they were; otherwise every `&`-separated item stores the decoded text after its first `=` under the text before it, the last item of a name wins, other names keep their old value. Missing from the full property: longer targets (see the refutation). [Verif/Props/Route.lean:14; CQP]
* `C21_route_parse_empty` — C21: the empty target is rejected and changes nothing. [Verif/Props/Route.lean:32; QP]
* `C21_route_parse_huge_refuted` — C21 is false for huge targets: a `?` at position 2^31 (2 GiB) does not fit the `int` it is stored in, and `Parse` throws; one position earlier the signed addition overflows. [Verif/Props/Route.lean:36; QP]

## C22 Route text round-trips — proved

Parsing the text ToString() produced into an empty route gives back the path and every parameter, for every iteration order, whenever the path is non-empty, path and keys consist of bytes that UrlEncode leaves alone (no ? in the path, no = & in keys) and values contain no &.

Over: all such routes, all byte values in parameter values except &, all iteration orders

* `C22_round_trip` — C22: the text of a route is parsed back to the same path and parameters, in whatever order the parameters were written. [Verif/Props/Route.lean:135; CQP]

## C23 Request build/parse round-trip — proved

Parsing what HttpReq::Build produced gives a request with the same method, version, path, parameters and body, and the same headers plus the generated Host and Content-Length.

Over: all well-formed requests with at least the generated headers, all bodies, all iteration orders

* `C23_round_trip` — C23: parsing the text of a built request with wire-safe headers and route gives back method, version, path, parameters, body and all headers; Host is added when it was missing; Content-Length is the body length (below 2 GiB). [Verif/Props/Req.lean:176; CQP]

## C24 Path and parameters cannot inject into the request line — proved

Whatever bytes the path, parameter names and values hold (CR, LF, spaces included), the text Build produces starts with exactly one request line 'METHOD target VERSION' whose target has no space, CR or LF.

Over: all paths, parameter maps and iteration orders

* `C24_request_line` — C24: whatever path, parameter names and values are, the built text starts with one request line whose target has no space, no CR, no LF and no other byte outside printable ASCII, and this line is ended by the first CRLF of the text. [Verif/Props/Req.lean:247; CQP]

## C25 Header values cannot inject further headers or end the header block — partial

For every header value a caller sets, the built message parsed by a conforming parser has no header the caller did not set.

Over: all header maps

* `C25_header_injection_refuted` — C25 is false: a value with a CRLF in it adds a header the caller did not set (here seen by the library's own parser). [Verif/Props/Req.lean:269; QP]
* `C25_no_injection_partial` — C25, the part that holds: if no name has a colon or CR and no value a CR (and no value is empty or starts with a space), the header block is exactly one line per header: the caller's and the generated ones, each once. [Verif/Props/Req.lean:280; CQP]
* `C25_no_injection_resp_partial` — C25, responses, the part that holds: one line per header, nothing else. [Verif/Props/Resp.lean:177; CQP]
* `C25_redirect_injection_refuted` — C25 is false for responses too: a redirect target with a CRLF adds a header, and a target with CRLFCRLF ends the header block and replaces the body. [Verif/Props/Resp.lean:197; QP]

## C26 HttpReq::Parse is total — partial

HttpReq::Parse returns kSuccess or kLogicErr for every byte string and every previous object state: it never throws, loops or reads out of bounds.

Over: all byte strings, all previous states

* `C26_total_partial` — C26 for texts whose first line is below 2 GiB: Parse returns success or a logic error, whatever the text and the previous state. Missing: longer first lines (see the refutation). [Verif/Props/Req.lean:302; CQP]
* `C26_total_refuted` — C26 is false without the bound: a request line with a `?` at position 2^31 of its target makes Parse throw. [Verif/Props/Req.lean:314; CQP]

## C27 HttpReq::Parse accepts exactly the well-formed requests — partial

Parse succeeds exactly when the text has a CRLFCRLF, its first line is three space-separated tokens (a known method, a non-empty target, a known version) and every header line has a colon.

Over: all byte strings

* `C27_accepts_partial` — C27, what is accepted (first line below 2 GiB): exactly the texts that have a CRLFCRLF and whose first line is a known method, a non-empty target and a known version, separated by single spaces. The full property also demands a colon in every header line; the code does not check that. [Verif/Props/Req.lean:341; CQP]
* `C27_rejects_unterminated` — C27: a text without CRLFCRLF is rejected. [Verif/Props/Req.lean:370; QP]
* `C27_stored_partial` — C27, what is stored when a request is accepted: the body, and the header lines before the first one without a colon. [Verif/Props/Req.lean:375; CQP]
* `C27_accepts_malformed_refuted` — C27 is false: a request with a header line that has no colon is accepted, and the headers after that line are silently dropped. [Verif/Props/Req.lean:401; QP]

## C28 Response build/parse round-trip — proved

Parsing what HttpResp::Build produced gives the same status code, version, body and headers (plus the generated Content-Length).

Over: all responses with a known status and well-formed headers, all bodies, all iteration orders

* `C28_round_trip` — C28: parsing the text of a built response with wire-safe headers, into any object, gives back status, version, body and all headers that were set; Content-Length is the body length (below 2 GiB); headers not set keep the value they had in the object parsed into (none for a fresh one). [Verif/Props/Resp.lean:131; CQP]

## C29 HttpResp::Parse is total — partial

HttpResp::Parse returns kSuccess or kLogicErr for every byte string: it never throws.

Over: all byte strings

* `C29_total_refuted` — C29 is false: the two-byte text CRLF makes Parse throw `std::out_of_range`. [Verif/Props/Resp.lean:219; QP]
* `C29_total_partial` — C29 for every other text: Parse returns success or a logic error, from any previous state. [Verif/Props/Resp.lean:229; CQP]

## C30 Messages are self-delimiting — proved

In the text HttpResp::Build (or HttpReq::Build) produces from well-formed headers, the first CRLFCRLF ends the header block, what follows is exactly the body, and its length is the announced Content-Length.

Over: all such messages with bodies below 2 GiB (what larger ones announce: C18), all iteration orders

* `C30_request_delimited` — C30, requests: the first CRLFCRLF of the built text ends the header block, what follows is exactly the body, and the announced length is its length. [Verif/Props/Req.lean:232; CQP]
* `C30_response_delimited` — C30, responses: the first CRLFCRLF of the built text ends the header block, what follows is exactly the body, and the announced length is its length. [Verif/Props/Resp.lean:206; CQP]

## C31 Response helpers set status, body and type — proved

NotFound, Redirect, SuccessWithBinary, SuccessWithJson, Success, BadRequest, InternalServerError, Json and Text set exactly the documented status, body and Content-Type (and Location) and change no other header, from any previous state; only UNKNOWN status makes Build fail.

Over: all previous response states and arguments

* `C31_helpers` — C31: the helpers set exactly the documented status, body and Content-Type. [Verif/Props/Resp.lean:338; CQP]
* `C31_redirect` — C31: Redirect sets 301 or 302, the matching page, Content-Type and Location, and no other header. [Verif/Props/Resp.lean:351; CQP]
* `C31_success` — C31: Success(type, body) with a built-in type; an empty body argument leaves the body alone. [Verif/Props/Resp.lean:364; CQP]
* `C31_build_fails` — C31: Build fails exactly for status UNKNOWN, and then leaves object and text alone. [Verif/Props/Resp.lean:375; QP]

## C32 The result of Parse depends only on the input — partial

Parsing a text into a request or response object that was used before gives the same observable object as parsing it into a fresh one.

Over: all previous object states, all inputs

* `C32_stale_request_refuted` — C32 is false: parsing into a used object keeps its old headers and parameters. [Verif/Props/Req.lean:409; QP]
* `C32_after_clear_partial` — C32, the part that holds: after Clear, an accepted text gives exactly the object a fresh one would hold, and the same texts are accepted. [Verif/Props/Req.lean:418; CQP]
* `C32_stale_response_refuted` — C32 is false for responses: the headers of an earlier response stay (the client relies on the caller to pass a fresh object). [Verif/Props/Resp.lean:389; QP]
* `C32_resp_after_clear_partial` — C32, the part that holds: after Clear, an accepted text gives exactly the object a fresh one would hold, and the same texts are accepted. [Verif/Props/Resp.lean:396; QP]

## C33 ReadUntil returns exactly the bytes up to and including the delimiter — partial

When the incoming byte stream contains the delimiter, ReadUntil into an empty buffer stores the shortest prefix of the stream that ends with the delimiter, returns its length and leaves all later bytes unread; when the stream ends first it returns the result of the failing receive.

Over: all byte streams, all non-empty delimiters, all stream ends

* `C33_read_until_partial` — C33, when the delimiter arrives: `ReadUntil` stores the shortest prefix that ends with the delimiter, returns its length (below 2 GiB) and leaves the rest of the stream unread. Missing: streams in which the delimiter's last byte arrives too early (`EarlyEnd`), for which it throws. [Verif/Props/Socket.lean:29; CQP]
* `C33_stream_end_partial` — C33, when the stream ends first: everything received is in the buffer, the result is that of the failing receive. [Verif/Props/Socket.lean:48; QP]
* `C33_delimiter_first_refuted` — C33 is false in general: a stream that starts with the delimiter makes `ReadUntil` throw, although it contains the delimiter. [Verif/Props/Socket.lean:63; QP]

## C34 ReadUntil never throws — partial

No byte sequence sent by the peer makes ReadUntil throw or access memory out of range.

Over: all byte streams and delimiters

* `C34_line_feed_throws_refuted` — C34 is false: one line feed is enough to make `ReadUntil(buf, CRLFCRLF)` throw. [Verif/Props/Socket.lean:82; QP]
* `C34_throws_iff_partial` — C34, exactly: `ReadUntil` throws iff the last byte of the delimiter is NUL or arrives while the text is still shorter than the delimiter; it never fails in any other way. [Verif/Props/Socket.lean:90; CQP]

## C35 Read and ReadPeek deliver the received bytes — partial

After Socket::Read(buf, len, complete) returned n >= 0, buf holds exactly the n received bytes (n = len when complete is set and the stream has that many), ReadPeek leaves the stream untouched.

Over: all incoming byte streams, all lengths

* `C35_read_partial` — C35, `Read`: it returns `n ≥ 0`, the number of bytes taken off the stream (for `complete`: all `len` of them if the stream has that many and `len` is below the kernel's limit; otherwise at least one); `buf` holds those bytes exactly when none of them is NUL. Missing: bytes with a NUL (refuted). [Verif/Props/Socket.lean:170; CQP]
* `C35_peek_partial` — C35, `ReadPeek` leaves the stream untouched and shows a prefix of it (up to its first NUL). [Verif/Props/Socket.lean:218; CQP]
* `C35_nul_truncates_refuted` — C35 is false: of the bytes `a NUL b` only `a` arrives in the buffer, while the result says 3. [Verif/Props/Socket.lean:246; P]
* `C35_nul_general_refuted` — C35 is false for zero bytes anywhere: the buffer is never what was received. [Verif/Props/Socket.lean:250; QP]

## C36 A closed or uninitialised socket performs no I/O — partial

Once Close returned (or before Init succeeded) every Read, Write, Connect, Bind, Listen, Accept and Close on that object fails with -1 (Accept: an uninitialised socket) without a system call on the old descriptor, until Init is called again; Close issues exactly one close per successful Init.

Over: all sequences of calls on one Socket object

* `C36_no_io` — C36: a protected call on an object that is not initialised (never was, or closed) returns -1 and makes no system call. [Verif/Props/Socket.lean:266; P]
* `C36_after_close` — C36 over histories: after any history, once `Close` has been called every protected call fails with -1 and makes no system call, until the next `Init`/`InitUdp`. [Verif/Props/Socket.lean:292; P]
* `C36_before_init` — C36 before any initialisation: the same, from a default-constructed object or one built from a negative descriptor. [Verif/Props/Socket.lean:300; P]
* `C36_close_once` — C36: there is never more than one `close` per successful initialisation, whatever the history: an object that starts uninitialised makes at most as many `close` calls as it created descriptors. [Verif/Props/Socket.lean:366; QP]
* `C36_reinit_leaks_refuted` — C36 is false on one point: initialising twice loses the first descriptor, so there is not one `close` for every successful `Init`. [Verif/Props/Socket.lean:375; none]
* `C36_failed_init_refuted` — C36 is false on another: a failed `Init` on an open object loses its descriptor but keeps it "initialised", so later calls do reach the system, with descriptor -1. [Verif/Props/Socket.lean:382; none]
* `C36_balanced_partial` — C36: if no initialisation happens on an open object, every created descriptor but the current one has been closed: #close + (1 if still open) = #created. [Verif/Props/Socket.lean:389; QP]

## C37 Requests reach the server unchanged — partial

When an HttpClient sends a request over a reliable stream to an HttpServer, the server's handlers see the same method, path, parameters and body and every header the client set; pipelined bytes of later requests stay in the stream.

Over: all well-formed requests, all bodies

* `C37_request_received_partial` — C37: what a client's `Send` writes for a request with wire-safe headers, route and NUL-free body is served as a request with the same method, version, path, parameters, body and headers (Host added if missing), and bytes after it stay in the stream. Missing: bodies with NUL bytes and bodies above the kernel's limit for one receive (both refuted below), routes that are not wire-safe (C70). [Verif/Props/Serve.lean:122; CQP]
* `C37_nul_body_refuted` — C37 is false for every body with a NUL byte: the handlers see a shorter body. [Verif/Props/Serve.lean:139; CQP]
* `C37_exact_partial` — C37, for bodies of any size: a wire-safe request is served with its method, version, path, parameters and headers, and it is served with its body exactly if the body holds no NUL and is not longer than 2147479552 bytes, the kernel's limit for one receive. Missing: the other bodies, see the refutations. [Verif/Props/Serve.lean:172; CQP]
* `C37_huge_body_refuted` — C37 is false for every body above the kernel's limit for one receive: the handlers see another body, and the bytes of the body that are left are taken for the next request. [Verif/Props/Serve.lean:190; CQP]

## C38 Responses reach the client unchanged — partial

The response a handler sets is what HttpClient::Send returns: same status, headers and body.

Over: all responses with well-formed headers, all bodies

* `C38_response_received_partial` — C38: when the handlers leave a response with a status and wire-safe headers and a NUL-free body, the server writes one text (after whatever the handlers wrote themselves), and a client whose stream starts with it gets 0, that status, version and body, every header that was set, and leaves later bytes unread. The response object passed in keeps headers of its own that the server did not send (`p.header`, none if it is fresh). [Verif/Props/Serve.lean:367; CQP]
* `C38_nul_body_refuted` — C38 is false for every body with a NUL byte: `Send` returns 0 with a shorter body. [Verif/Props/Serve.lean:386; CQP]
* `C38_exact_partial` — C38, for bodies of any size: `Send` returns 0 and gives the body that the server sent exactly if the body holds no NUL and is not longer than the kernel's limit for one receive. Missing: the other bodies, see the refutations. [Verif/Props/Serve.lean:399; CQP]
* `C38_huge_body_refuted` — C38 is false for every body of 2 to 4 GiB: `Send` returns 0 with an empty body, and the whole body is left in the connection, where the next response is expected. [Verif/Props/Serve.lean:428; CQP]

## C39 Send reports success only for a complete response — partial

HttpClient::Send returns 0 only if the request was written and a complete response (header block and Content-Length bytes) was received and parsed.

Over: all behaviours of the connection

* `C39_write_failure_refuted` — C39 is false: when the request cannot be written, `Send` returns 0 and leaves the response object untouched. [Verif/Props/Serve.lean:463; QP]
* `C39_success_partial` — C39, what holds: if the request was written and `Send` returns 0, then the stream held a complete header block, which was parsed, and all of the announced bytes; the stream afterwards starts right behind them. (The body stored is the C string in those bytes, see C35.) [Verif/Props/Serve.lean:477; CQP]

## C40 Routing runs exactly the matching handlers in order — partial

For every request path the server calls the handlers registered on a full path (group prefix + path) equal to it, and the non-exact handlers (Use, StaticDir) registered on a prefix of it, whose filters all accept: shortest path first, in registration order on equal paths.

Over: all registration sequences (groups included) and all request paths

* `C40_routing_partial` — C40, what holds: if no registration collides with an earlier one (`SeparateAll`), all paths are ASCII and so is the request path, the server calls exactly the handlers the property demands, in that order. Missing: colliding registrations, for which the property is false (see below), and non-ASCII bytes (C11, C46). [Verif/Props/Server.lean:111; CQP]
* `C40_exact_partial` — What the code does for arbitrary (ASCII) registrations: the table it builds is the one of `TableStep`, which looks for the path without the group's prefix, finds longer paths too, and replaces instead of appending. [Verif/Props/Server.lean:138; CQP]
* `C40_group_overwrites_refuted` — C40 is false: of two handlers registered on the same path of a group only the second one is called. [Verif/Props/Server.lean:170; P]
* `C40_prefix_hijacked_refuted` — C40 is false: a handler registered on a prefix of an earlier path is called for the longer path and not for its own. [Verif/Props/Server.lean:177; P]
* `C40_group_middleware_escapes_refuted` — C40 is false: once the server has middleware, the middleware of a group runs for every request. [Verif/Props/Server.lean:184; P]
* `C40_api_partial` — C40 for the calls a user makes: whatever groups are nested and whichever of `RegisterHandler`, `Use`, `StaticDir` and `StaticFile` are called, with one callback or several, the server calls exactly the handlers the calls are meant to register. Missing: GET and POST (C41), collisions, non-ASCII bytes. [Verif/Props/Server.lean:221; CQP]

## C41 A handler registered with GET (POST) runs only for GET (POST) requests — partial

No request with another method reaches a handler registered through GET or POST.

Over: all registrations, all requests

* `C41_method_dropped_refuted` — C41 is false: GET and POST do the same thing, namely register for every method. [Verif/Props/Server.lean:240; P]
* `C41_lists_refuted` — The same for lists of callbacks. [Verif/Props/Server.lean:245; P]
* `C41_delete_reaches_get_refuted` — … so a DELETE request reaches a handler registered with GET. [Verif/Props/Server.lean:250; P]
* `C41_explicit_filter_partial` — C41, the part that holds: a handler that carries a method filter among its filters (as the static handlers do, and as callers can pass explicitly) is skipped for a request with another method. [Verif/Props/Server.lean:287; QP]
* `C41_static_partial` — The static handlers are registered with the filter. [Verif/Props/Server.lean:296; QP]

## C42 Abort stops the handler chain — partial

After a handler calls ctx.Abort() (and no later Next), no further handler runs for that request.

Over: all handler chains

* `C42_abort_ignored_refuted` — C42 is false: whatever the first handler does to the context's continue flag, the second one runs on the context it leaves. [Verif/Props/Server.lean:310; CQP]
* `C42_server_stop_partial` — C42, what does stop the chain: a handler that stops the server. [Verif/Props/Server.lean:356; P]
* `C42_flag_partial` — C42, what `Next` and `Abort` do: after any calls of the two, `is_continue()` tells which one came last (before the first call: as if `Abort` had). [Verif/Props/Server.lean:363; QP]

## C43 StaticDir never serves files outside its directory — proved

Every path StaticDir opens is the configured directory, a slash and a suffix of the request path that has no '..' in it, so after lexical normalisation it lies inside the configured directory.

Over: all request paths and mount paths, all non-empty directory names (an empty one is the root directory: C43_empty_dir_escapes)

* `C43_confined` — C43: the handler looks at the file system only inside the configured directory: two file systems that agree on every path lexically inside it give the same result (same response, same everything). [Verif/Props/Static.lean:132; CQP]
* `C43_served_inside` — C43, what is served: if the response is a 200 that the handler made, its body is the content of a file inside the directory. [Verif/Props/Static.lean:175; CQP]
* `C43_empty_dir_escapes` — The name of the directory must not be empty: with an empty one the handler serves absolute paths of the whole file system (`"" + "/" + "etc/passwd"`), not files of the working directory. [Verif/Props/Static.lean:247; QP]

## C44 Static handlers serve the file's bytes with its content type — partial

For a GET of an existing readable file, StaticFile and StaticDir answer 200 with exactly the file's bytes and the content type of its suffix (a registered custom type included).

Over: all file contents, suffixes and custom registrations

* `C44_static_file` — C44 for StaticFile: an existing readable file is answered with 200, exactly its bytes, and the content type of its suffix (a registered custom type included); nothing else changes but the Connection header. [Verif/Props/Static.lean:292; CQP]
* `C44_static_dir_partial` — C44 for StaticDir, what holds: for a suffix without a custom type the answer is 200 with exactly the file's bytes and the content type. `reqPath = pre ++ mount ++ rest` at the first occurrence of `mount`. [Verif/Props/Static.lean:319; CQP]
* `C44_static_dir_custom_refuted` — C44 is false for StaticDir: a file whose suffix has a registered custom type is sent with an empty Content-Type (StaticFile sends the registered one). [Verif/Props/Static.lean:364; QP]

## C45 Every readable request is answered exactly once — partial

For every complete request the server writes exactly one response: 400 (then close) when parsing fails, 404 when no handler set a status, otherwise the handler's response.

Over: all inputs on a healthy connection, all handlers

* `C45_line_feed_refuted` — C45 is false: a complete request whose first byte is a line feed, such as this one, cannot be parsed, but instead of being answered with 400 it makes `HandleRead` throw. [Verif/Props/Serve.lean:571; QP]
* `C45_bad_request_partial` — C45, a request that cannot be parsed: one 400 answer with the parser's message, then the connection is closed; no handler runs. Missing: requests with a line feed in the first three bytes, or of 2 GiB and more. [Verif/Props/Serve.lean:590; CQP]
* `C45_answered_partial` — C45, a request that can be parsed and whose body is complete: the server writes exactly one response after whatever the handlers wrote themselves. If the handlers set no status it is the 404 page; otherwise it is the handlers' response. (Read back with the library's parser, for headers that survive the wire; in any case it is the text `Build` gives.) Missing: requests with a line feed in the first three bytes, or of 2 GiB and more. [Verif/Props/Serve.lean:672; CQP]
* `C45_incomplete` — C45, a stream that ends before the blank line: no answer, no handler, closed. [Verif/Props/Serve.lean:707; QP]

## C46 No client input crashes the server — partial

Whatever bytes a client sends, HandleRead finishes without an exception or undefined behaviour.

Over: all byte streams

* `C46_total_partial` — C46, what holds: if no line feed is among the first three bytes, the first line is ASCII, the whole input is below 2 GiB, and no handler or filter fails, then `HandleRead` finishes normally, whatever the client sends. Missing: the inputs refuted below. [Verif/Props/Serve.lean:828; CQP]
* `C46_line_feed_refuted` — C46 is false: one line feed from any client makes `HandleRead` throw (and nothing above it catches). [Verif/Props/Serve.lean:887; QP]
* `C46_non_ascii_refuted` — C46 is false: a byte above 127 in the path indexes the trie's child array out of bounds. [Verif/Props/Serve.lean:894; QP]
* `C46_long_name_refuted` — C46 is false: a URL below a static directory with a component that is too long makes `HandleRead` throw `filesystem_error` (`stat` fails with ENAMETOOLONG). [Verif/Props/Serve.lean:899; QP]

## C47 A truncated request body is rejected — partial

A handler never runs for a request whose announced Content-Length bytes did not all arrive.

Over: all streams that end early

* `C47_tls_partial` — C47 over TLS, where it holds: a request whose body is not complete when the stream ends is not served; nothing is answered and the connection is closed. [Verif/Props/HttpTls.lean:109; CQP]
* `C47_truncated_refuted` — C47 is false: if some but not all of the announced bytes arrive before the peer closes (or the receive times out), the handlers run on the truncated body, and the answer is the same as if it were complete. [Verif/Props/Serve.lean:916; CQP]
* `C47_no_body_partial` — C47, what holds: if none of the announced bytes arrives, no handler runs and the connection is closed without an answer. [Verif/Props/Serve.lean:947; CQP]

## C48 Accepted tasks run at most once, in FIFO order — partial

Under every interleaving of workers and clients, the sequence of started tasks is a prefix of the sequence of accepted tasks: nothing is run twice, nothing that was not accepted is run, and tasks start in the order they were queued.

Over: all thread interleavings, any number of workers and clients

* `C48_once_partial` — C48, every number of workers: the tasks leave the queue in the order in which they entered it (what was popped is a prefix of what was accepted, the rest is still queued), and every popped task is either finished or in the hands of exactly one worker; so the executed tasks, with their multiplicities, are among the accepted ones: nothing runs twice and nothing runs that was not accepted. [Verif/Props/Pool.lean:43; P]
* `C48_single_worker_partial` — C48 with one worker (as the file logger uses it): the tasks are called in the order in which they were accepted. [Verif/Props/Pool.lean:110; QP]
* `C48_start_order_refuted` — C48 is false about the order in which tasks start: with two workers the second task can start first (a worker calls its task after it has released the mutex). [Verif/Props/Pool.lean:127; CQP]

## C49 A running pool never forgets a queued task — proved

While the pool is running with at least one worker, a non-empty queue always has a worker that is awake (not blocked waiting for a notification) or an AddTask that is about to notify one, so no wake-up is lost and the pool cannot deadlock with work pending.

Over: all interleavings

* `C49_no_lost_wakeup` — C49: while the pool runs, if any worker is blocked then every queued task has an awake worker of its own on its way to the queue, except that one notification may be about to be sent. [Verif/Props/Pool.lean:148; CQP]
* `C49_awake` — C49: so the queue is never non-empty with all workers asleep. [Verif/Props/Pool.lean:154; CQP]
* `C49_progress` — C49, progress: whenever a task is queued and some worker has no task, the pool can take the first queued task without a new call, a spurious wake-up or the end of a running task. [Verif/Props/Pool.lean:173; CQP]

## C50 Stop waits for running tasks and afterwards nothing runs — partial

When Stop has returned, every worker has exited, no task is executing and none starts later.

Over: all interleavings

* `C50_quiescent_partial` — C50, for a pool controlled by one thread: when `Stop` returns no worker has a task, every popped task has been run to its end, and in every continuation (whatever any thread does, resizing included) no task is popped, started or finished any more. (It is false for two threads that call `Stop`, see below.) [Verif/Props/Pool.lean:215; QP]
* `C50_exited_partial` — C50, for a pool that one thread initialises, stops and never resizes: when `Stop` returns every worker thread has returned. [Verif/Props/Pool.lean:366; QP]
* `C50_second_stop_refuted` — C50 is false if two threads call `Stop`: the second call returns at once, while a task is running. [Verif/Props/Pool.lean:394; CQP]

## C51 Stop runs every accepted task before it returns — partial

Every task for which AddTask returned kSuccess has been executed when Stop returns.

Over: all interleavings

* `C51_dropped_refuted` — C51 is false: a task that `AddTask` accepted is not run if `Stop` comes first, and never will be. [Verif/Props/Pool.lean:403; CQP]
* `C51_accounted_partial` — C51, what holds (one controlling thread): when `Stop` returns, the accepted tasks are the finished ones and those still in the queue; in particular all of them if the queue is empty. [Verif/Props/Pool.lean:419; QP]

## C52 Stop always terminates — partial

From every reachable state, once all running tasks finish, Stop returns: no worker can stay blocked after Stop's notification.

Over: all interleavings

* `C52_lost_stop_refuted` — C52 is false: the notification of `Stop` can fall between a worker's test of the flag and its going to sleep (the flag is not written under the mutex). The worker then sleeps and, whatever any thread does afterwards, `Stop` does not return unless the operating system wakes the worker for no reason. [Verif/Props/Pool.lean:539; CQP]
* `C52_returns_partial` — C52, what holds (one controlling thread): if no worker is between its test and its going to sleep when `Stop` notifies, then however the threads are scheduled afterwards, as long as `Stop` has not returned and no task has thrown it can still return, by steps of the calls and tasks already begun alone. [Verif/Props/Pool.lean:623; CQP]

## C53 Resize keeps the pool usable — partial

After Resize(n) with n > 0 the pool has n live workers and accepts tasks; destroying it afterwards is safe.

Over: all histories of Init, Resize, AddTask, Stop and destruction

* `C53_refuses_refuted` — C53 is false: after `Resize` has changed the size, `AddTask` refuses every task. [Verif/Props/Pool.lean:674; CQP]
* `C53_destroy_refuted` — C53 is false: destroying the pool after `Resize` has changed the size terminates the program. [Verif/Props/Pool.lean:688; CQP]
* `C53_same_partial` — C53, what holds: `Resize` to the current size or to 0 leaves the pool as it was. (For other sizes see `C53_always_refuses_partial`.) [Verif/Props/Pool.lean:703; P]
* `C53_always_refuses_partial` — C53, how far the failure goes: after any `Resize` that changed the size, every later `AddTask`, by whichever thread, returns -2, and no thread is ever able to make the pool accept tasks again. [Verif/Props/Pool.lean:829; QP]
* `C53_size_partial` — C53, what holds of the size (one controlling thread): when `Resize(n)` with `n ≠ 0`, or `Init(n)`, returns, the pool has `n` threads, and takes itself to have so many. (Whether they still run is another matter, see `C53_always_refuses_partial`.) [Verif/Props/PoolTask.lean:226; CQP]

## C54 GetBusyAndTaskNum reports consistent numbers — partial

The reported task number is the exact queue length and the busy number never exceeds the number of workers and equals the number of workers currently between taking up and finishing a task.

Over: all interleavings

* `C54_gap_refuted` — C54 is false as stated: the numbers can be 0 and 0 while an accepted task is neither queued nor finished (a worker has taken it off the queue and not yet counted itself as busy). [Verif/Props/Pool.lean:860; CQP]
* `C54_numbers_partial` — C54, what holds: at the moment the numbers are returned, the task number is the length of the queue and the busy number is that of the workers that have begun a task's bookkeeping and not yet ended it, so at most the number of workers. (A worker between popping a task and counting itself is not included.) [Verif/Props/Pool.lean:924; CQP]

## C55 FileLogger loses and duplicates nothing — partial

If every file append succeeds, after Stop the file holds its previous content followed by every logged line exactly once, for every schedule of the background flusher and every clock.

Over: all logging histories, all flush schedules, all clocks, all buffer sizes/counts >= 1

* `C55_complete_partial` — C55, if the number of buffers is at least one and is set before `Init`: when `Stop` or the destructor has returned, and no file operation failed, the file holds its previous content followed by every logged line exactly once. (It is false if the number of buffers is changed later, see below.) [Verif/Props/Logger.lean:54; CQP]
* `C55_count_refuted` — C55 is false if `set_buf_num` is called after `Init`: `Stop` visits only that many buffers and throws away the others, here the second of two lines. [Verif/Props/Logger.lean:116; CQP]

## C56 FileLogger keeps the order of lines — partial

Lines appear in the file in the order they were logged.

Over: all logging histories and flush schedules

* `C56_prefix_partial` — C56 up to the first `Stop`, if no file operation fails: at every moment the file holds its previous content followed by the first so many of the lines logged so far, in order. [Verif/Props/Logger.lean:174; CQP]
* `C56_no_drop_partial` — C56 for the first `Stop` (or the destructor), if no file operation fails and `Stop` finds no flush left over (every flush given to the background thread was performed by it): the file holds its previous content followed by all logged lines in order. (Without that it is false, see below.) [Verif/Props/Logger.lean:182; CQP]
* `C56_order_refuted` — C56 is false: with two buffers, the first is flushed and used again while the second waits for the background thread; `Stop` drops the waiting flush and writes the buffers in the order of the list, so that the third line comes before the second. [Verif/Props/Logger.lean:213; CQP]

## C57 Failed appends do not lose lines — partial

If an append fails, its lines stay buffered and are written by a later Stop whose appends succeed.

Over: all patterns of append failures

* `C57_kept_partial` — C57: appends of the background thread that fail (the file cannot be opened) lose nothing: when a `Stop` whose own appends succeed, or the destructor, has returned, the file holds its previous content followed by every line logged since the logger was made, each exactly once. (Missing: writes that the operating system cuts short, see `C57_cut_refuted`; failures in `Stop` itself, see `C57_stop_refuted`.) [Verif/Props/Logger.lean:41; CQP]
* `C57_cut_refuted` — C57 is false of an append that the operating system cuts short (disk full): it is taken for a success, the buffer is cleared, and the rest of the line never reaches the file although every later append succeeds. [Verif/Props/Logger.lean:145; CQP]
* `C57_stop_refuted` — C57 is false of an append that fails in `Stop`: the buffers are thrown away, and a second `Stop` writes nothing. [Verif/Props/Logger.lean:157; CQP]

## C58 Log level filtering — proved

A logger emits a message exactly when the message's level is at least the logger's level; MultiLogger passes every message to each of its loggers, in order, each applying its own level.

Over: all levels, all messages, all nestings of loggers

* `C58_std` — C58, `StdLogger`: a message is printed exactly if its level is at least the logger's. [Verif/Props/Logger.lean:253; none]
* `C58_multi` — C58, any nesting of `MultiLogger`s without a null pointer: the message goes to each logger in the tree, in order, and each applies its own level. [Verif/Props/Logger.lean:259; P]
* `C58_init` — C58, `Init`: any number of calls of `Init` on a new `MultiLogger`, each with loggers that are not null: the message goes to the loggers of all calls, in their order. [Verif/Props/Logger.lean:311; P]
* `C58_file` — C58, `FileLogger`: between two calls, a message is taken exactly if its level is at least the logger's and the logger is initialised; otherwise, and only then, the call does nothing. [Verif/Props/Logger.lean:348; CQP]

## C59 FileLogger::Init reports an unusable file — partial

Init returns 0 only if the logger is usable afterwards (later messages reach the file).

Over: all outcomes of file creation and permission check

* `C59_foreign_refuted` — C59 is false in another way: `Init` of a directory, or of another user's file that its owner may write, returns 0 as if the logger worked; every append fails, and the lines are lost. [Verif/Props/LogInit.lean:422; CQP]
* `C59_locked_refuted` — C59 is false, with the file: `Init` of a file that its owner may not write returns 0; the logger stays uninitialised. [Verif/Props/LogInit.lean:450; P]
* `C59_unwritable_refuted` — C59 is false: if the file exists but its owner may not write it, `Init` returns 0 without having initialised anything; every message after that is thrown away. [Verif/Props/Logger.lean:412; CQP]
* `C59_start_partial` — C59, if `File::CanWrite` says yes: `Init` returns an error code only when `File::Create` did, with the same code, which is not 0; otherwise it goes on to start the background thread. [Verif/Props/Logger.lean:420; P]
* `C59_usable_partial` — C59, continued: in every execution, once `Init` has reached its end (and until `Stop` is called) the logger is usable between two calls: a message of sufficient level is taken. [Verif/Props/Logger.lean:435; CQP]

## C60 Data that arrived before the peer closed is delivered — partial

When a peer sends data and then closes, the server gets a read event for the data before the leave event.

Over: all event batches

* `C60_delivered_partial` — C60, exactly: the read callbacks before the leave callback deliver the bytes the peer had sent by the last wait before it closed, all of them and in order; what was sent after that wait is never delivered. [Verif/Props/Tcp.lean:361; QP]
* `C60_all_partial` — In particular: if the server waits between the last data and the close, everything is delivered. [Verif/Props/Tcp.lean:383; QP]
* `C60_lost_refuted` — C60 is false: a peer that sends and closes before the server looks again is reported as gone; its data is never offered. [Verif/Props/Tcp.lean:400; QP]

## C61 In I/O multiplexing mode every accepted connection is closed exactly once — partial

For every sequence of events, each connection delivered with kEventAccept is closed once, right after its kEventLeave or kEventError callback, is no longer monitored afterwards, and no descriptor is leaked or closed twice.

Over: all event sequences

* `C61_closed_once_partial` — C61, while the server runs: whatever `epoll_wait` reports in whatever order and however `accept` and `epoll_ctl` fail, a server in I/O multiplexing mode whose callback is polite never closes a descriptor that is not open, ends watching and closes a connection right after its leave or error callback, and whenever it waits, the only descriptors open besides those of the rest of the process are its epoll descriptor and the watched ones (so nothing is leaked); each number is closed as often as it was opened, except that the open ones are still to be closed. Missing: connections that are still open when the server is stopped (below). [Verif/Props/Tcp.lean:94; CQP]
* `C61_http_server_partial` — The callback of `HttpServer` is polite, whatever it is answered. [Verif/Props/Tcp.lean:163; P]
* `C61_stop_leaks_refuted` — C61 is false when the server ends: stopping, leaving the loop and destroying the server (`Stop`, `Clean`) closes no connection, so one that is still there is leaked. [Verif/Props/Tcp.lean:235; P]

## C62 In multi-thread mode every accepted connection is closed — partial

Each accepted connection's descriptor is closed after its kEventLeave callback.

Over: all connections

* `C62_callback_closes_partial` — C62, what holds: however often the connection becomes readable, its task calls the callback once for the accept, once per readable moment, and once, last, for the leave; a callback that closes the connection when it is told of the leave closes it exactly then and only once. The server itself closes nothing (below). [Verif/Props/TcpMore.lean:27; QP]
* `C62_every_connection_has_a_task_partial` — Every connection accepted by the multi-thread mode gets a task at once, except one that is accepted after `Stop` (the wake-up connection). [Verif/Props/TcpMore.lean:39; QP]
* `C62_never_closed_refuted` — C62 is false: whatever the connection, however often it becomes readable, the task ends after the leave callback and no descriptor is closed, unless the callback does it. [Verif/Props/TcpMore.lean:120; QP]
* `C62_http_server_refuted` — The callback of `HttpServer` does not: on a connection whose peer leaves after any number of good requests nothing is closed; and when it drops a connection (a bad request), the task goes on using the number it has closed. [Verif/Props/TcpMore.lean:131; QP]

## C63 A failed Init leaks nothing — partial

When TcpServer::Init returns an error, every descriptor it opened is closed again.

Over: all failure points of Init

* `C63_failed_init_partial` — C63, what holds: after an `Init` that failed, in whatever mode and at whatever point, and `Clean`, exactly the descriptors are open that were open before, except that the socket stays open when `Init` failed after `socket` and before `listen`. Before `Clean`, the epoll descriptor is open too if `epoll_ctl` failed. [Verif/Props/TcpMore.lean:214; QP]
* `C63_bind_refuted` — C63 is false: `Init` fails because the port is in use, and the socket is left open, also by `Clean`. [Verif/Props/TcpMore.lean:282; P]

## C64 A registered callback is the one that is called — partial

After Register(cb) every event is delivered to cb.

Over: all orders of Init, Register

* `C64_registered_partial` — C64, what holds: whatever is called after `Register` except `Init`, and whatever happens in the loops, every event is delivered to the registered callback (as long as the callback itself does not register another). [Verif/Props/TcpMore.lean:293; QP]
* `C64_before_init_refuted` — C64 is false: a callback registered before `Init` is replaced by one that does nothing. [Verif/Props/TcpMore.lean:309; P]

## C65 Addresses round-trip — partial

Address(ip, port) reports the same port for every port and the same ip text for every canonical dotted quad, ToString is 'ip:port'; Init fails for text that is not an address.

Over: all 2^16 ports, all 2^32 addresses, all strings

* `C65_round_trip` — C65: every port and every canonical dotted quad come back, and `ToString` is `ip:port`. [Verif/Props/Address.lean:270; CQP]
* `C65_invalid_accepted_refuted` — C65 is false in its last part: `Init` reports success for text that is no address, and the object then holds 255.255.255.255. [Verif/Props/Address.lean:285; P]
* `C65_init_never_fails_refuted` — C65, more generally: `Init` never fails, for any text. [Verif/Props/Address.lean:290; P]
* `C65_domain` — C65, the resolver path: every address the resolver answers is stored, with the given port; a failed lookup is reported and leaves the address alone. [Verif/Props/Address.lean:294; CQP]

## C66 A complete SSL read returns all requested bytes or fails — proved

SSLSocket::Read(buf, len, true) returns len with exactly the next len stream bytes in buf, or, if the stream ends before or len is 2 GiB or more, an error; it never returns a short count, whatever record sizes SSL_read delivers.

Over: all record fragmentations, all lengths

* `C66_complete` — C66: a complete SSL read of `len` bytes either returns `len` with exactly the next `len` bytes of the stream, or, if the stream ends before or 2 GiB or more are asked for, the system error code; never a short count, and it always ends, whatever record sizes arrive. [Verif/Props/Socket.lean:512; CQP]

## C67 Context data is typed and keyed — partial

HttpContext::Get<T>(k) returns the value of the last Set<T'>(k, v) if T' = T and a default T otherwise, for every history of Set/Get calls.

Over: all histories

* `C67_typed_partial` — C67, for every type but `std::any`: after any calls, `Get<T>(key)` returns the value of the last `Set` for this key if that was a `T`, given as a `T` or inside a `std::any`, and `T()` otherwise. [Verif/Props/Context.lean:93; QP]
* `C67_any_refuted` — C67 is false for `std::any`: what is set with `Set<std::any>` is not returned by `Get<std::any>`, whatever it is. [Verif/Props/Context.lean:123; P]

## C68 SetCookie keeps cookies apart — partial

After several SetCookie calls the response carries one Set-Cookie header per cookie.

Over: all cookie sequences

* `C68_first_cookie_partial` — C68, the part that holds: the first cookie is written as `key=value` and its attributes, separated by `; `, under Set-Cookie; nothing else changes. [Verif/Props/Header.lean:489; CQP]
* `C68_cookies_merged_refuted` — C68 is false: whatever cookies are set one after the other, the header block has one Set-Cookie line, in which the second cookie follows the first after `; ` as if it were an attribute. [Verif/Props/Header.lean:507; CQP]

## C69 A response whose header block is not terminated is rejected — partial

HttpResp::Parse returns an error for every text that does not contain CRLFCRLF.

Over: all byte strings without CRLFCRLF

* `C69_unterminated_refuted` — C69 is false: a response whose header block is not terminated (the connection broke inside it) is accepted, and the text from its fourth byte on becomes the body. [Verif/Props/Resp.lean:269; QP]
* `C69_unterminated_general_refuted` — C69 in general: every unterminated text with a good status line and header lines is accepted. [Verif/Props/Resp.lean:275; CQP]
* `C69_no_line_partial` — C69, the part that holds: a text without any CRLF is rejected and leaves the object unchanged. [Verif/Props/Resp.lean:319; QP]

## C70 Paths with special characters survive the wire — partial

Parsing the text of a built request gives back the path that was set, for every path (spaces, percent signs and non-ASCII bytes included).

Over: all paths

* `C70_path_not_decoded_refuted` — C70 is false: `ToString` escapes the path, `Parse` does not undo it. [Verif/Props/Route.lean:158; QP]
* `C70_path_escaped_partial` — C70, what holds: without parameters, a path without `?` comes back in its escaped form (hence as it was exactly when no byte needs escaping). [Verif/Props/Route.lean:164; QP]

## C71 Option setters do not touch a closed socket's descriptor — partial

SetNoBlock, SetBlock, SetReuseAddr, SetReadTimeout, SetWriteTimeout and SetSockOpt on a closed Socket make no system call on the old descriptor number.

Over: all sequences of calls on one Socket object

* `C71_setters_after_close_refuted` — C71 is false: the option setters and `SetNoBlock`/`SetBlock` do not check the status; on a closed object they act on the old descriptor number, which may by now belong to somebody else. [Verif/Props/Socket.lean:405; none]
* `C71_setters_partial` — C71, what holds: setters never change the object and make no call but `fcntl`/`setsockopt` on the stored descriptor. [Verif/Props/Socket.lean:413; QP]

## C72 ReadPeek leaves the data in the connection, SSL or not — partial

After ReadPeek the next Read returns the same bytes again, on a plain and on an SSL socket.

Over: all incoming streams, lengths, record sizes

* `C72_ssl_peek_consumes_refuted` — C72 is false: `ReadPeek` on an SSL socket consumes what it shows (the flag is ignored). [Verif/Props/Socket.lean:536; none]
* `C72_peek_partial` — C72, what holds: the bytes shown are a prefix of the stream, and on a plain socket the stream is left untouched. [Verif/Props/Socket.lean:541; QP]

## C73 Closing an SSL socket says goodbye before the descriptor is closed — partial

SSLSocket::Close performs the SSL shutdown on the open descriptor, closes the descriptor exactly once, and makes no call on the descriptor number after it is closed.

Over: all sequences of calls on one SSLSocket object

* `C73_close_order_refuted` — C73 is false: `Close` always closes the descriptor first and then performs the TLS shutdown on the number that it has just closed. [Verif/Props/Ssl.lean:15; P]
* `C73_goodbye_first_partial` — C73, what holds: after any use of the connection, `CloseSSL` followed by `Close` says goodbye on the open descriptor, frees the session, and closes the descriptor, each once and in this order. [Verif/Props/Ssl.lean:54; QP]
* `C73_once_partial` — Whatever is called in whatever order, the descriptor is closed at most once, the session is freed at most once, and it is not used after it was freed. [Verif/Props/Ssl.lean:243; QP]

## C74 Static handlers outlive the group object — partial

A handler registered by StaticDir or StaticFile through any HttpGroup, also a temporary one, serves requests for as long as the server runs.

Over: all groups, paths, files, requests

* `C74_temporary_group_refuted` — C74 is false: after the group object is gone, a GET request for the registered path is undefined behaviour, for StaticFile and StaticDir, every prefix, path and file. [Verif/Props/Static.lean:421; CQP]
* `C74_live_group_partial` — C74, what holds: while the group lives, the handlers are never undefined behaviour, on any request and any file system. [Verif/Props/Static.lean:436; CQP]

## C75 A response is sent completely or the connection is closed — partial

After HandleRead, either all bytes of the response were passed to the connection or the connection is closed.

Over: all responses, all outcomes of the write

* `C75_short_write_refuted` — C75 is false: whenever the write takes only a part of the response (any count from 0 up to its length), the connection stays open, so the peer sees a truncated response followed by the next one. [Verif/Props/Serve.lean:975; QP]
* `C75_failed_write_partial` — C75, what holds: if the write fails, the connection is closed; and so it is after every answer to a request that cannot be parsed (`C45_bad_request_partial`). [Verif/Props/Serve.lean:985; QP]

## C76 A host filter accepts exactly the matching hosts — partial

A HttpHostFilter initialised with a regular expression accepts a request iff its Host matches the expression, one initialised with a wildcard iff its Host matches the wildcard.

Over: all expressions, wildcards, requests

* `C76_host_partial` — C76, exactly what a host filter accepts: hosts matching the expression, or the wildcard, which is empty unless it was set. [Verif/Props/Static.lean:477; QP]
* `C76_wildcard_partial` — C76 for a wildcard filter: accepts exactly the hosts that match the wildcard. [Verif/Props/Static.lean:496; QP]
* `C76_regex_partial` — C76 for a filter with an expression, as far as it holds: exact for every request that names a host. [Verif/Props/Static.lean:503; QP]
* `C76_no_host_refuted` — C76 is false: a filter with only an expression lets every request without a Host header through, whatever the expression. [Verif/Props/Static.lean:514; QP]

## C77 StaticDir maps a URL to the file of the same relative name — partial

A request for mount ++ '/' ++ rel, where mount is the full mount path (group prefix and path), is answered from dir ++ '/' ++ rel.

Over: all group prefixes, paths, directories, relative names

* `C77_relative_partial` — C77, what holds: if the first occurrence of the mount path (without the group's prefix) in the URL is the mount itself, the file asked for is the one of the same relative name: a file system holding only that file gives its content, and any other file is irrelevant. [Verif/Props/Static.lean:530; QP]
* `C77_no_prefix_partial` — The condition always holds on the server itself (no group prefix). [Verif/Props/Static.lean:567; QP]
* `C77_first_occurrence_refuted` — C77 is false: with `Group("/a")` and `StaticDir("/a", "www")`, the request `/a/a/x.svg` is not answered from `www/x.svg` but passed on (the file looked for is `www//a/x.svg`). [Verif/Props/Static.lean:580; QP]

## C78 AddTask's result tells whether the task was queued — proved

The tasks the pool has accepted are exactly those of the AddTask calls that returned kSuccess, in the order in which they were queued, apart from a call that is about to return.

Over: all interleavings of any number of threads

* `C78_result` — C78: the accepted tasks are those of the `AddTask` calls that returned 0, plus at most one whose call is about to return. [Verif/Props/Pool.lean:1134; CQP]

## C79 A stopped pool accepts nothing any more — proved

Every AddTask call begun after a call of Stop has returned is refused, whatever else is called in between.

Over: all interleavings, all later histories

* `C79_stopped_for_good` — C79: once any call of `Stop` has returned, every `AddTask` call begun afterwards, by any thread, returns -2, whatever else is called in between. [Verif/Props/Pool.lean:1153; QP]

## C80 The normal life of a pool does not terminate the program — proved

A pool that one thread initialises once, stops any number of times and destroys never calls std::terminate (no joinable thread is destroyed, none is joined twice), whatever tasks other threads add meanwhile, as long as no task throws.

Over: all interleavings

* `C80_no_terminate` — C80: a pool that one thread initialises once, stops any number of times, and destroys, while any number of threads and the tasks themselves add tasks and ask for the numbers, never terminates the program as long as no task throws: no joinable thread is destroyed and no thread is joined twice. [Verif/Props/Pool.lean:1402; QP]

## C81 set_level limits what a logger emits — partial

After set_level(v) a logger, of whatever class, emits no message of a level below v.

Over: all loggers, levels, messages

* `C81_std_partial` — C81, `StdLogger`: after `set_level(v)` exactly the messages of level at least `v` are printed. [Verif/Props/Logger.lean:397; none]
* `C81_multi_refuted` — C81 is false of a `MultiLogger`: `set_level` changes nothing, for any loggers and any level. [Verif/Props/Logger.lean:402; P]

## C82 FileLogger::Stop and the destructor return — partial

From every reachable state a call of Stop (or the destructor) returns once the running flush has ended.

Over: all interleavings of the logging thread and the background thread

* `C82_hangs_refuted` — C82 is false: `Stop` (or the destructor) can hang for ever: if the background thread is just between its test and going to sleep when `Stop` notifies it, then in every continuation without a spurious wake-up `Stop` never returns. [Verif/Props/Logger.lean:519; CQP]
* `C82_returns_partial` — C82, what holds: if the background thread is not just between its test and going to sleep when `Stop` notifies it, then whatever happens afterwards (flushes that fail, a full disk, spurious wake-ups), as long as `Stop` (`d`: the destructor) has not returned it can return, by silent steps of the flush already begun and of `Stop` itself. [Verif/Props/Logger.lean:548; CQP]

## C83 A FileLogger can be stopped, initialised again and destroyed — partial

Whatever sequence of Init, logging calls and Stop is made, destroying the logger never terminates the program.

Over: all histories and schedules

* `C83_once_partial` — C83, a logger that is initialised once, whatever happens to it afterwards (messages, any number of calls of `Stop`, destruction) never terminates the program. [Verif/Props/Logger.lean:685; CQP]
* `C83_again_refuted` — C83 is false: a logger that was stopped and initialised again cannot be destroyed. The pool stays stopped, its new thread is never joined, and the destructor of the `std::thread` ends the program. [Verif/Props/Logger.lean:699; CQP]

## C84 The log file only ever holds whole lines — proved

At every moment, before Stop too, the file holds its previous content followed by whole logged lines, none more often than it was logged (as long as the operating system takes every write that it starts completely, Stop can open the file, and the number of buffers is at least one and set before Init).

Over: all moments of all executions

* `C84_whole_lines` — C84: at every moment, also before `Stop` and whatever appends of the background thread have failed, the file holds its previous content followed by whole lines, and these are among the logged lines, none more often than it was logged. [Verif/Props/Logger.lean:230; CQP]

## C85 Stop ends the event loop — partial

After Stop, followed by WakeUp, EventLoop returns in every mode without anything else having to happen, and handles nothing that is reported later.

Over: all modes, all moments of Stop, all reports

* `C85_select_partial` — **C85**, what holds with `select`: the round in which a callback calls `Stop` is the last one, whatever would be reported later; the loop returns 0 then, and while nothing was stopped it does not return 0. [Verif/Props/Backends.lean:527; CQP]
* `C85_kqueue_partial` — **C85**, what holds with `kqueue`: the round in which a callback calls `Stop` is the last one, whatever would be reported later; the loop returns 0 then, and while nothing was stopped it does not return 0. [Verif/Props/Backends.lean:616; CQP]
* `C85_next_event_partial` — C85, what holds in the modes with epoll: once `Stop` has been called, the first wait that ends (with events, interrupted or failing) is the last one: the events it reported are handled and the loop returns, whatever would be reported later and whatever the callbacks do. [Verif/Props/TcpMore.lean:336; QP]
* `C85_next_accept_partial` — In the multi-thread mode: once `Stop` has been called, the first `accept` that ends is the last one, and the loop returns after stopping the pool. [Verif/Props/TcpMore.lean:427; QP]
* `C85_still_waiting_refuted` — C85 is false: in the I/O multiplexing mode `Stop` followed by `WakeUp` makes no system call, so a loop that waits goes on waiting until something else happens. [Verif/Props/TcpMore.lean:511; P]

## C86 The trigger type that was set is used — partial

After io_multiplexing()->set_trigger_type(kEdgeTrigger) descriptors added later are watched edge-triggered.

Over: all histories

* `C86_always_level_refuted` — C86 is false: whatever is called in whatever order, the trigger type included, no descriptor is ever watched edge-triggered. [Verif/Props/TcpMore.lean:604; QP]

## C87 In mixed mode a connection is handled by one task at a time, and not after it was closed — partial

At most one task of a connection is queued or running, and none when its descriptor is closed.

Over: all schedules of the loop and the pool

* `C87_tasks_partial` — C87, what holds: in the mixed mode the tasks given to the pool are exactly, and in the order of, the reports that a connection is readable (and neither closed by its peer nor in error), whatever the callbacks do. [Verif/Props/TcpMore.lean:629; QP]
* `C87_overlap_refuted` — C87 is false: the pool has not yet run the task of a readable connection when epoll reports it again, so a second task is queued for it; and then the peer leaves, and the descriptor is closed with both tasks queued. [Verif/Props/TcpMore.lean:635; P]

## C88 Clean releases the server's own descriptors — partial

After Clean every descriptor the server opened for itself (listening sockets, epoll descriptors, wake-up sockets) is closed; a second Clean closes nothing.

Over: all histories

* `C88_clean_partial` — C88, what holds (I/O multiplexing mode): after a successful `Init`, whatever is called and whatever happens, with the exception of another `Init`, once `Clean` has been called (at any moment, also while a loop waits) the listening socket and the epoll descriptor have been closed; `Clean` closes nothing else, and calling it again closes nothing. [Verif/Props/TcpMore.lean:730; QP]
* `C88_wake_up_partial` — `WakeUp` leaves open exactly what was open, unless its `connect` fails. [Verif/Props/TcpMore.lean:758; CQP]
* `C88_leaks_refuted` — C88 is false: a second `Init` forgets the descriptors of the first, and `WakeUp` whose `connect` fails leaves its socket open; `Clean` does not close them. [Verif/Props/TcpMore.lean:792; P]

## C89 No order of calls crashes the server — partial

No sequence of calls on a TcpServer goes through a null pointer or an empty callback.

Over: all histories, answers of the system, actions of the callbacks

* `C89_orderly_partial` — C89, what holds: after a successful `Init` in one of the three modes, no sequence of calls that respects the mode crashes (no null pointer, no empty callback), whatever the system answers and the callbacks do. [Verif/Props/TcpMore.lean:806; QP]
* `C89_null_refuted` — C89 is false: `AddSoc` before `Init`, `AddSoc` in the multi-thread mode, and `Stop` or `EventLoop` after the mode was changed go through a null pointer. [Verif/Props/TcpMore.lean:819; P]

## C90 I/O on a closed TLS socket is refused — partial

After Close or CloseSSL on an SSLSocket, reading and writing return an error and touch neither session nor descriptor.

Over: all histories of calls on the object

* `C90_after_close_partial` — C90, what holds: after `Close`, in whatever state the object was and whatever is called later, reading and writing is refused without touching the session. [Verif/Props/Ssl.lean:285; QP]
* `C90_null_refuted` — C90 is false: after `CloseSSL` alone, reading or writing goes through the null session. [Verif/Props/Ssl.lean:299; QP]

## C91 Only a completed handshake gives a TLS socket — partial

AcceptSSL returns a socket exactly when the TLS handshake completed; otherwise the session made for it is freed.

Over: all connections and all results of the handshake

* `C91_handshake_partial` — C91, what holds: after a handshake that failed with a negative result there is no TLS socket and the session is freed; after a successful one there is an open TLS socket for the connection, with that session. [Verif/Props/Ssl.lean:308; QP]
* `C91_zero_refuted` — C91 is false: a handshake that ended with result 0 (the peer shut it down) counts as success. [Verif/Props/Ssl.lean:321; none]

## C92 A server context that was initialised has the given certificate and key — partial

When InitSvr or InitSvrFile returns success, the context in use was given the certificate and the private key.

Over: all arguments and all answers of OpenSSL

* `C92_file_partial` — C92, what holds: when `InitSvrFile` returns success, the new context uses the given certificate and the given key. [Verif/Props/Ssl.lean:328; QP]
* `C92_key_refuted` — C92 is false: `InitSvr` never gives the context a key, although it succeeds. [Verif/Props/Ssl.lean:349; P]

## C93 A SSLContext frees what it made — partial

Every SSL_CTX that a SSLContext makes or is given is freed exactly once by the end of the object's life.

Over: all histories of calls, all answers of OpenSSL

* `C93_contexts_partial` — C93, what holds: in every life of a `SSLContext` that makes its own contexts, no context is freed more often than it was made, and if no call failed inside OpenSSL, each is freed exactly as often as it was made. [Verif/Props/Ssl.lean:475; QP]
* `C93_certificates_partial` — C93, the certificates that `InitSvr` reads: none is freed that was not made, and if no call failed inside OpenSSL all are freed. [Verif/Props/Ssl.lean:499; QP]
* `C93_leak_refuted` — C93 is false: a context whose certificate is refused is never freed; and `Init(ctx)` forgets the context that was there. [Verif/Props/Ssl.lean:524; none]

## C94 A TLS socket that cannot be made leaves no descriptor behind — partial

CreateSSLSocket() either returns a TLS socket that owns the new descriptor or leaves no descriptor open.

Over: all answers of the system and OpenSSL

* `C94_owned_partial` — C94, what holds: unless `SSL_new` fails, `CreateSSLSocket()` either opens no descriptor or returns a TLS socket that owns it. [Verif/Props/Ssl.lean:533; QP]
* `C94_leak_refuted` — C94 is false: when `SSL_new` fails the new descriptor is left open and nobody has it. [Verif/Props/Ssl.lean:548; none]

## C95 A TLS connection is served through its own session — proved

Whenever a TLS HttpServer reads or writes a connection it uses the session whose handshake was made on this connection since it was accepted and which was not freed, also when descriptor numbers are used again; it never goes through a missing session.

Over: all sequences of events, with any reuse of descriptor numbers

* `C95_own_session` — C95: whenever the server reads or writes a TLS connection, it uses the session whose handshake was made on this very connection since it was accepted, and which has not been freed. [Verif/Props/Ssl.lean:963; QP]
* `C95_served` — C95: and the server never goes through a missing session: a readable event of an open connection is served. [Verif/Props/Ssl.lean:968; QP]

## C96 TLS sessions are freed with their connection — partial

Every session of a TLS HttpServer is freed exactly once, at the latest when its connection ends.

Over: all sequences of events

* `C96_once_partial` — C96, what holds: no session is freed twice, and none is freed that was not made. [Verif/Props/Ssl.lean:975; QP]
* `C96_freed_partial` — C96, what holds: when a connection ends by leaving or by being dropped after a read, its session is freed and its descriptor closed. [Verif/Props/Ssl.lean:981; QP]
* `C96_leak_refuted` — C96 is false: the session of a connection that ends with an error is not freed, and is lost when the descriptor number is used again. [Verif/Props/Ssl.lean:1005; QP]

## C97 A file holds what was written to it — partial

After File::Write returned success, and after any later calls that do not rewrite or remove this file, File::Read gives the written data followed by all data appended since; a Write or Append that fails changes nothing and returns an error; Read reports what it cannot read with an error code.

Over: all paths, data and sequences of calls, all answers of the system

* `C97_written_partial` — C97, if the system takes all bytes it is given: when `Write` has returned success for a path that is a file or missing, then after any calls for any paths that do not rewrite or remove this file, `Read` gives the written data followed by all data appended since, every byte of it. [Verif/Props/File.lean:180; QP]
* `C97_refused_partial` — C97, if the system refuses: nothing is changed and the caller is told. [Verif/Props/File.lean:205; P]
* `C97_short_refuted` — C97 is false: when the disk is full, `Write` returns success and the file does not hold the data. [Verif/Props/File.lean:225; P]
* `C97_read_refuted` — C97 is false: `Read` of a directory neither gives data nor reports an error, it throws where the buffers of the library throw, whatever is in the tree; and so does the `Read` of a file that the system fails to deliver. [Verif/Props/File.lean:232; P]
* `C97_read_partial` — C97, what holds for every `Read`: it returns an error exactly if there is nothing or the system refuses to open it, and then the caller's text is as it was; it returns success exactly with what the system delivered of the file; and it throws in no other case than those of `C97_read_refuted`. [Verif/Props/File.lean:246; QP]

## C98 LineCount is the number of lines — partial

LineCount gives the number of lines of a file (a last line without line feed counts), and 0 for a missing file.

Over: all contents

* `C98_lines_partial` — C98, for files of fewer than 2^31 lines that can be read: `LineCount` is the number of lines; it is 0 for a missing file. [Verif/Props/File.lean:330; CQP]
* `C98_missing` — C98: `LineCount` of what does not exist, of a directory and of what may not be opened is 0. [Verif/Props/File.lean:339; QP]
* `C98_overflow_refuted` — C98 is false for files with 2^31 lines or more: the counter overflows. [Verif/Props/File.lean:351; CQP]

## C99 Create makes an empty file and touches nothing else — partial

When File::Create returns success the file exists, it is empty if it did not exist before, and nothing that existed is changed; missing directories are made; failures are returned as an error.

Over: all paths and file trees, all answers of the system

* `C99_created_partial` — C99, what holds: when `Create` returns success for something that is not a device, the file exists, everything that existed is as it was, and a file that did not exist is empty. [Verif/Props/File.lean:392; QP]
* `C99_makes_partial` — C99, what holds: if the system grants everything and nothing but directories is on the way, `Create` succeeds, and makes the missing directories. [Verif/Props/File.lean:407; QP]
* `C99_throws_refuted` — C99 is false: when something on the way is not a directory, `Create` throws instead of returning an error. [Verif/Props/File.lean:456; QP]

## C100 Remove removes exactly the given file — partial

When File::Remove returns success the path is gone and everything else is as it was; failures are returned as an error.

Over: all paths and file trees, all answers of the system

* `C100_removed_partial` — C100, what holds: when `Remove` returns, it returns success, the path is no file, and everything else is as it was. [Verif/Props/File.lean:463; P]
* `C100_throws_refuted` — C100 is false: when the system refuses, `Remove` throws instead of returning an error; and a directory is not removed although success is returned. [Verif/Props/File.lean:481; P]

## C101 CanWrite says whether the file can be written — partial

File::CanWrite returns true exactly when File::Append to the path would be granted by the system.

Over: all paths, file trees and permissions

* `C101_owner_partial` — C101, what holds: for a file that exists, and a process for which the owner's permission bit decides whether it can be opened, `CanWrite` says whether `Append` will be granted. [Verif/Props/File.lean:489; P]
* `C101_refuted` — C101 is false: `CanWrite` says yes for a missing file in a missing directory, and whenever the owner may write, also to a process that may not. [Verif/Props/File.lean:498; P]
* `C101_directory_refuted` — C101 is false of every directory: `CanWrite` says yes (the owner may write in it), and neither `Write` nor `Append` can ever be granted, whatever the system answers. [Verif/Props/File.lean:504; QP]

## C102 HttpClient releases what it opened — partial

By the end of a HttpClient's life every descriptor, TLS session and TLS context that it opened is released exactly once.

Over: all histories of Init, InitSSL, Close and destruction, all answers of the system and OpenSSL

* `C102_released_partial` — C102 and C103, when the calls are in order: the client does not crash, and by the end of its life every descriptor, TLS session and TLS context that it opened is released exactly once. [Verif/Props/ClientLife.lean:272; QP]
* `C102_leak_refuted` — C102 is false: a second `Init` loses the first connection; a second `InitSSL` loses descriptor and session. [Verif/Props/ClientLife.lean:322; P]

## C103 No order of calls crashes the HttpClient — partial

No sequence of Init, InitSSL, Close and destruction goes through a null pointer.

Over: all histories

* `C103_null_refuted` — C103 is false: after `InitSSL` and then `Init`, `Close` and the destructor go through a null pointer. [Verif/Props/ClientLife.lean:330; P]
* `C103_no_crash_partial` — C103, when the calls are in order. [Verif/Props/ClientLife.lean:354; QP]

## C104 HttpClient connects to the given port, 80 or 443 if it is 0 — proved

Init and InitSSL connect to the address and port that were given; when the port is 0 they use the default port (80, with TLS 443).

Over: all addresses and ports

* `C104_port` — C104: the connection goes to the given address, and to the default port exactly when the given port is 0. [Verif/Props/ClientLife.lean:361; CQP]

## C105 Requests on one connection are served in order, each like a request that arrives alone — proved

However many complete requests arrive back to back on one connection, the server answers them in order, one call per request, writes for each exactly what it writes when that request arrives alone, and leaves the bytes after them unread.

Over: all lists of complete requests below 2 GiB with ASCII paths, all following bytes, all handlers that return and do not read the stream themselves

* `C105_in_order` — C105: complete requests that follow one another on a connection are served one by one, in order, each exactly as if it had come alone; what follows them stays in the stream. [Verif/Props/Conversation.lean:110; CQP]

## C106 A client and a server can talk for ever — proved

Any number of HttpClient::Send calls one after the other on one connection each return success, with the response that the handlers gave to this very request, and leave nothing over in either direction.

Over: all lists of requests and responses that can be put on the wire

* `C106_conversation` — C106: on one connection, any number of `Send`s one after the other: each returns 0 with the response that the server's handlers gave to this very request, and nothing is left over in either direction. [Verif/Props/Conversation.lean:224; CQP]

## C107 Clients do not influence each other — partial

When the handlers share no state, what a client gets does not depend on what other clients send or on how their requests are interleaved.

Over: all sets of connections, all interleavings

* `C107_isolated_partial` — C107, for handlers that share no state: what a connection gets, in whatever order the reports of the connections come, is what it gets when the others do not exist. [Verif/Props/Conversation.lean:560; QP]
* `C107_content_type_refuted` — C107 is false: once a client has asked a static directory for a file with a custom content type, every client gets an empty content type for files without suffix. [Verif/Props/Conversation.lean:595; QP]

## C108 A slow client does not hold up the others — partial

With I/O multiplexing, a client that has sent part of a request does not keep the server from serving the others.

Over: all unfinished requests

* `C108_waits_refuted` — C108 is false for a server in I/O multiplexing mode: take any bytes without a blank line (no LF among the first three). If the peer ends the stream there, nothing is answered and the connection is closed; if the bytes go on in another way, something is answered. So when only these bytes have come, `HandleRead` has not returned, and the one thread of the server serves nobody else. [Verif/Props/Conversation.lean:643; CQP]
* `C108_timeout_partial` — C108, with timeouts on the sockets (`SetReadTimeout`; when the time is over a read fails, so the stream of such a client ends): any number of clients have sent part of a request, without a blank line (no LF among the first three bytes), and send no more. Whatever the order of reports, all other clients are served exactly as if the slow ones were not there, and each slow one costs the server at most one wait: it is closed then, and no handler is called for it. Missing: the other clients do wait for that time. [Verif/Props/Conversation.lean:691; QP]

## C109 The server closes the connection after the response exactly when the client asks for it — partial

After the response the server closes the connection when the request says Connection: close (or comes from an HTTP/1.0 client) and keeps it open otherwise.

Over: all complete requests

* `C109_kept_partial` — C109, the half that holds: a complete request served by handlers that do not touch the stream leaves the connection open when writing the response works — whatever its headers are. [Verif/Props/Conversation.lean:833; CQP]
* `C109_close_ignored_refuted` — C109 is false: `Connection: close` is ignored, also from an HTTP/1.0 client. [Verif/Props/Conversation.lean:847; CQP]

## C110 TLS changes nothing about how a request is served — partial

Whatever records the client's bytes arrive in, a TLS connection is served like a plain one: the handlers see the same request, and the same response is written.

Over: all byte streams with a complete body, all divisions into records

* `C110_like_plain` — C110: a TLS connection is served like a plain one: whatever the records are, `HandleRead` calls the handlers with the same request, writes the same, and leaves the same state, as for the same bytes on a plain connection (the body, if one is announced, being there in full). [Verif/Props/HttpTls.lean:63; CQP]
* `C110_left_partial` — **C110** (what the handlers read): a handler that reads from a TLS connection takes the bytes off it, as on a plain one: what is left to be read is exactly what the handlers left, however the bytes were cut into records. (The other case is a handler that puts bytes back, which no function of the socket can do.) [Verif/Props/TlsLeft.lean:50; QP]

## C111 Requests sent one after the other on a TLS connection are all answered — partial

Every complete request that has arrived on a TLS connection is answered without waiting for further bytes of the client.

Over: all lists of requests, all divisions into records

* `C111_aligned_partial` — C111 when no record holds bytes of two requests: the requests on a TLS connection are answered in order, one `HandleRead` each, each as if it had come alone. Missing: a record with bytes of two requests, see `C111_exact_partial`. [Verif/Props/HttpTls.lean:309; CQP]
* `C111_exact_partial` — C111, exactly which requests are answered, however the requests are spread over records (none empty): those that begin not later than the last record, each in its turn and as if it had come alone. The others are decrypted and wait for another record. Missing: the requests that begin inside the last record, see the refutation. [Verif/Props/HttpTls.lean:457; CQP]
* `C111_one_record_refuted` — C111 is false: of two requests in one TLS record only the first is answered, however long the server waits: the second one is decrypted and ready (`t'.stream`), but nothing reports it. [Verif/Props/HttpTls.lean:471; CQP]

## C112 TLS changes nothing about what a client gets — proved

Whatever records the server's bytes arrive in, HttpClient::Send over TLS returns the same code and fills the response with the same status, headers and body as over a plain connection.

Over: all byte streams whose header block announces at most 2 GiB less one page (the most one receive on a plain socket gives), all divisions into records

* `C112_like_plain` — C112: a TLS client gets what a plain client gets from the same bytes: `Send` returns the same code and fills the response in the same way, whatever the records are. [Verif/Props/HttpTls.lean:142; CQP]

## C113 Run serves exactly when the server was started — proved

Run on an HttpServer that was never started, whose last start failed, or that was stopped since returns an error without any system call; on a server that was started and not stopped it enters the loop and hands every event to the HTTP handlers.

Over: all histories of Init, InitSSL, Run, Stop and the timeout setters in each mode, all answers of the system

* `C113_not_started` — C113, first half: on a server that has not been started, or whose last start failed, or that has been stopped since, `Run` returns a logic error at once, makes no system call and calls nothing, whatever calls were made before. [Verif/Props/HttpLife.lean:329; QP]
* `C113_started` — C113, second half: on a server that has been started and not stopped since, `Run` is not refused, and every event that it reports is reported to the callback of `HttpServer`. [Verif/Props/HttpLife.lean:348; QP]

## C114 Init starts a plain server, InitSSL a TLS server — partial

After a successful Init new connections are served without TLS, after a successful InitSSL over TLS with the given context; a refused InitSSL (mixed mode, no context) changes nothing, so that no connection is ever served over TLS in mixed mode.

Over: all histories

* `C114_protocol_partial` — C114, what holds: after whatever calls, a new connection is served over TLS exactly if some `InitSSL` has succeeded, with the context of the last one that has; the connection is kept exactly when the handshake completes, and closed otherwise. [Verif/Props/HttpLife.lean:494; QP]
* `C114_refused_partial` — A refused `InitSSL` (mixed mode, or no context) does nothing and changes nothing. [Verif/Props/HttpLife.lean:518; QP]
* `C114_stays_tls_refuted` — C114 is false: a server that was started with `InitSSL`, stopped, and started again with `Init` still does TLS, so clients of plain HTTP are turned away; and in this way TLS is also done in mixed mode, which `InitSSL` refuses. [Verif/Props/HttpLife.lean:538; P]

## C115 The timeouts that were set hold for every new connection — partial

Every connection accepted after SetReadTimeout(sec, usec) (SetWriteTimeout) waits at most sec seconds and usec microseconds in a read (write), the TLS handshake included, and for ever if both are 0.

Over: all histories, all unsigned values

* `C115_timeouts_partial` — C115, exactly when it holds: after whatever calls, the reads of a new connection wait as long as the last `SetReadTimeout` says (for ever if it says 0, or was not called), and its writes as long as the last `SetWriteTimeout` says, if and only if the seconds are less than 2^31 and the microseconds less than a million. [Verif/Props/HttpLife.lean:671; CQP]
* `C115_before_handshake_partial` — The timeouts are in force before the TLS handshake: a client that does not answer cannot hold it up for ever. [Verif/Props/HttpLife.lean:705; QP]
* `C115_timeouts_refuted` — C115 is false: two million microseconds are refused by the system, nobody looks at the result, and reads wait for ever; 2^31 seconds make reads not wait at all. [Verif/Props/HttpLife.lean:764; P]

## C116 No order of calls crashes the HttpServer — partial

No sequence of calls on an HttpServer goes through a null pointer or an empty callback.

Over: all histories in each mode, all answers of the system

* `C116_no_crash_partial` — C116, what holds: as long as the mode is not changed, no sequence of calls on an `HttpServer` (in whatever order, whatever the system answers) goes through a null pointer or an empty callback. [Verif/Props/HttpLife.lean:775; QP]
* `C116_mode_refuted` — C116 is false: changing the mode of a server that has been started makes `Run` or `Stop` go through a null pointer. [Verif/Props/HttpLife.lean:782; P]

## C117 Stop releases everything the HttpServer holds — partial

After Stop (or the destructor) every descriptor that the server opened or accepted is closed; a second Stop does nothing.

Over: all histories

* `C117_stop_partial` — C117, what holds (I/O multiplexing mode): whatever happened before, after a successful start and any calls except another start, `Stop` (at any moment, also while `Run` waits) has closed the listening socket and the epoll descriptor of this start, and it closes nothing but these (and the socket it wakes the loop with); a second `Stop`, or the destructor, does nothing more. [Verif/Props/HttpLife.lean:891; QP]
* `C117_stop_refuted` — C117 is false: connections that are open when the server is stopped stay open, also when the server object is destroyed; and `Init` on a running server forgets the descriptors that it has. [Verif/Props/HttpLife.lean:983; P]

## C118 A timer fires every period and every firing is reported once — partial

After Init(sec, nsec) (or Reset) succeeded, reads of the timer report exactly the firings every sec seconds and nsec nanoseconds since then: each read reports those since the last one, at least one, at once if there are any and otherwise at the next one.

Over: all periods, all sequences of reads at any times

* `C118_firings_partial` — **C118**, what holds: after `Init` with a well formed period and a positive descriptor, the reads of the timer (of 8 bytes or more, starting at any times) report exactly the firings every `sec * 10^9 + nsec` nanoseconds since `Init`. Missing: other periods, see the refutation. [Verif/Props/Timer.lean:65; CQP]
* `C118_reset_partial` — **C118**, what holds: `Reset` of an open timer starts it afresh: the firings reported are those of the new period since `Reset`, and none of those before. [Verif/Props/Timer.lean:83; CQP]
* `C118_silent_partial` — **C118**, the dark side: whenever the period is not well formed `Init` reports success all the same, and no read of the timer ever returns. [Verif/Props/Timer.lean:110; CQP]
* `C118_period_refuted` — **C118**, refuted as stated: `Init(0, 1000000000)` asks for one second, reports success, and the timer never fires. [Verif/Props/Timer.lean:128; none]
* `C118_reset_ignored_partial` — A failing `Reset` of a running timer leaves the old period in force and reports success. [Verif/Props/Timer.lean:139; QP]

## C119 Reading a timer gives the number of firings — partial

Read into a buffer or into a string delivers the number of firings; ReadPeek does so without taking them away.

Over: all numbers of firings

* `C119_buffer_partial` — **C119**, what holds: the eight bytes a read leaves in the caller's buffer are the number of firings. [Verif/Props/Timer.lean:163; QP]
* `C119_string_partial` — **C119**, what holds: the string form of `Read` gives the number of firings when it is below 256. [Verif/Props/Timer.lean:170; QP]
* `C119_string_refuted` — **C119**, refuted as stated: after 256 firings the string form of `Read` yields the empty string: all firings look lost, and they are not reported again. [Verif/Props/Timer.lean:192; none]
* `C119_peek_refuted` — **C119**, refuted as stated: `ReadPeek` takes the firings away. [Verif/Props/Timer.lean:198; none]

## C120 The results of a timer's Init and Reset tell what happened — partial

Init returns the descriptor, or -1 and leaves the object unusable and nothing open; Reset returns -1 unless it set the timer.

Over: all objects, arguments and answers of the system

* `C120_init_partial` — **C120**, what holds: `Init` succeeds exactly when the system gave a positive descriptor, and the object is open then, with that descriptor. [Verif/Props/Timer.lean:205; QP]
* `C120_failed_partial` — **C120**, what holds: a timer object whose only `Init` failed makes no system call on reading. [Verif/Props/Timer.lean:220; QP]
* `C120_descriptor_refuted` — **C120**, refuted as stated (the documentation: "return: timerfd, -1 if failed"): `Init` never returns the descriptor. [Verif/Props/Timer.lean:227; QP]
* `C120_reset_refuted` — **C120**, refuted as stated (the documentation of `Reset`: "-1 if failed"): `Reset` of an object that was never initialised calls the system with descriptor -1 and reports success. [Verif/Props/Timer.lean:237; none]
* `C120_zero_refuted` — **C120**, refuted as stated: a descriptor 0 is a success of the system and reported as a failure; the object is not open and cannot be closed, so the descriptor stays open for good. [Verif/Props/Timer.lean:243; none]
* `C120_again_refuted` — **C120**, refuted as stated: after a failed second `Init` the object still counts as open, and reading calls the system with descriptor -1; the first descriptor is lost. [Verif/Props/Timer.lean:249; none]
* `C120_elsewhere_partial` — **C120**, on macOS and Windows: whatever is called on a new timer, in any order, every `Init` and `Reset` returns a negative result, every read fails, and no system call is made. [Verif/Props/Timer.lean:255; QP]

## C121 Datagrams are read one by one as they were written — partial

Each ReadUdp returns exactly one datagram with its sender, in order of arrival, with all bytes that WriteUdp was given, when it is not longer than the length asked for.

Over: all sequences of datagrams of all senders, all lengths

* `C121_round_trip_partial` — **C121**, what holds: the datagrams that any senders wrote are read one per call, in order, each with its sender, whole and unchanged, when none is longer than the length asked for or the largest UDP payload and none contains a NUL. [Verif/Props/Timer.lean:331; QP]
* `C121_length_partial` — **C121**, what holds of every length: `WriteUdp` returns the length and one datagram is sent, or it returns -1 and none is, exactly when it is longer than the largest UDP payload. [Verif/Props/Timer.lean:348; QP]
* `C121_one_per_call_partial` — **C121**, what holds of every datagram: each call takes exactly one from the queue, reports its sender and as many bytes as fit; the rest of it is lost and is not mixed with the next one. [Verif/Props/Timer.lean:368; QP]
* `C121_round_trip_refuted` — **C121**, refuted as stated: `WriteUdp` sends a NUL byte and `ReadUdp` into a string drops it and what follows, though it returns the full length. [Verif/Props/Timer.lean:383; none]

## C122 A peer that hangs up does not stop the program — partial

Whatever a peer does with its connection, closing it or breaking it off at any moment, the server (or client) goes on; at most that connection is closed.

Over: all moments of closing and resetting between the writes, all requests

* `C122_ignored_partial` — **C122**, what holds: if the application has arranged that `SIGPIPE` is ignored, nothing a client does to its connection between the server's writes stops the server. The reports that a client who stays would get served are served up to the failed write, with the same answers, and then the connection is closed. Missing: the default disposition of `SIGPIPE`, see the refutation. [Verif/Props/Hangup.lean:46; QP]
* `C122_staying_partial` — **C122**, what holds: a client that stays is served as before, whatever the disposition of `SIGPIPE`. [Verif/Props/Hangup.lean:95; QP]
* `C122_killed_partial` — **C122**, exactly when the process ends by default: when a write is made on a connection whose peer is gone. [Verif/Props/Hangup.lean:124; QP]
* `C122_hangup_refuted` — **C122**, refuted as stated: a client sends two complete requests to a server with one harmless handler and closes its connection. The server answers the first; the answer to the second one ends the process. [Verif/Props/Hangup.lean:169; QP]
* `C122_client_refuted` — **C122**, for clients, refuted as stated: the server has closed an idle connection; the first `Send` on it gets no answer, and the second one ends the client's process. [Verif/Props/Hangup.lean:194; QP]
* `C122_client_ignored_partial` — **C122**, for clients, what holds: with `SIGPIPE` ignored no `Send` of a request that can be built ends the process. To a server that is there, or that has closed its side, it sends as always, whatever the disposition; to one that is gone it reads nothing and leaves the response as it was (and returns success: C39). [Verif/Props/Hangup.lean:217; QP]

## C123 The log of a server shows one line per request and one per answer — partial

Each request is logged in a line with its method, path and connection and each answer in a line with its status; no client can make the log show a line that was not logged.

Over: all requests

* `C123_logged_partial` — **C123**, what holds: a complete request is logged by two messages: one with its method, path and connection when it was read, and, if the answer could be written, one with the status that the answer carries. (Only the server's own messages.) Missing: that each message is one line, see the refutations. [Verif/Props/Hangup.lean:251; CQP]
* `C123_one_line_partial` — **C123**, what holds: the message about a request is a single line when its decoded path has no line break. [Verif/Props/Hangup.lean:321; QP]
* `C123_forged_refuted` — **C123**, refuted as stated: one request whose path has a line break in it makes the console look exactly as if the application had logged a message that the client made up. (The path may have no spaces; it may have line breaks.) [Verif/Props/Hangup.lean:353; QP]
* `C123_incomplete_partial` — **C123**, a request that never becomes complete: one message of level error, which says whether the client closed, was too slow, or the connection failed; nothing about an answer, and none is sent. [Verif/Props/Hangup.lean:365; QP]
* `C123_bad_request_partial` — **C123**, a request that cannot be parsed: a message of level error with the parser's reason, and one with the status 400 of the answer. [Verif/Props/Hangup.lean:380; CQP]
* `C123_no_body_partial` — **C123**, a request that announces a body of which nothing comes: one message of level error, nothing about an answer, and none is sent. (A body that comes in part is served, C45.) [Verif/Props/Hangup.lean:400; CQP]
* `C123_blank_line_refuted` — **C123**, refuted as stated: the message about the answer always carries a line break of its own, so the log has an empty line after it. [Verif/Props/Hangup.lean:436; QP]
* `C123_static_forged_refuted` — **C123**, refuted as stated, for the messages of the static handlers: a path with a line break makes `StaticDir` write a line that the client has made up. [Verif/Props/StaticLog.lean:180; CQP]

## C124 A socket that was monitored successfully is watched — partial

On each platform, after MonitorSoc (AddSoc) reported success for a socket it is watched until it is removed; after RemoveSoc reported success it is not.

Over: all sequences of calls, any number of sockets

* `C124_select_partial` — **C124**, what holds with `select`: as long as at most 64 different descriptors are ever monitored, exactly those are watched that were monitored and not removed since `Init`, whatever the set held before. Missing: more descriptors, see the refutation. [Verif/Props/Backends.lean:99; CQP]
* `C124_select_refuted` — **C124**, refuted as stated: with `select` the 65th descriptor is reported as monitored and is not watched. [Verif/Props/Backends.lean:105; QP]
* `C124_answers_partial` — **C124**, with `select`, for the calls one by one: neither ever reports failure; a descriptor that is removed is not watched any more, and the others are watched as before. [Verif/Props/Backends.lean:111; CQP]
* `C124_full_refuted` — **C124**, with `select` and any 64 descriptors: every further one is reported as monitored, and is not. [Verif/Props/Backends.lean:120; QP]
* `C124_kqueue_partial` — **C124**, what holds with `kqueue`: a call that reports success has its effect, and one that reports failure has none. [Verif/Props/Backends.lean:130; CQP]

## C125 Every ready socket is reported in each round — partial

On each platform a watched socket that is ready is reported in the round, whatever the callbacks of the others do to their own sockets.

Over: all sets of sockets, all callbacks, all rounds

* `C125_select_partial` — **C125**, what holds with `select`: a watched descriptor that stays ready, and that no callback removes, is reported within as many rounds as there are descriptors before it, plus one. Missing: in the very round, see the refutation. [Verif/Props/Backends.lean:297; CQP]
* `C125_select_refuted` — **C125**, refuted as stated: with `select`, when a callback removes its connection, the next one in the set is skipped in this round although it is ready. [Verif/Props/Backends.lean:330; QP]
* `C125_kqueue_partial` — **C125**, what holds with `kqueue` (and with epoll, see `ioBatch`): every event that the kernel reports and that says leave, error or read is passed on, in order, whatever the callbacks do. [Verif/Props/Backends.lean:349; QP]

## C126 A signal does not end the event loop — partial

A wait that is interrupted by a signal changes nothing: the loop goes on as if it had not happened.

Over: all runs with interruptions at any points

* `C126_server_partial` — **C126**, what holds of the server in the modes with epoll: signals that interrupt its waits change nothing. `EventLoop` without them ends in the same way, with the server in the same state, and does everything else in the same order. Missing: the multi-thread mode, see the refutation, and `kqueue`. [Verif/Props/Accept.lean:244; QP]
* `C126_multithread_refuted` — **C126**, refuted for the multi-thread mode: a signal that interrupts `accept` (which then returns -1) ends the event loop of every running server with an error; had it not come, the loop would have waited for the next connection. [Verif/Props/Accept.lean:275; QP]
* `C126_epoll_partial` — **C126**, what holds with epoll: waits that are interrupted by a signal change nothing: the server and the way the loop ends are those of the run without them, and so is all that happens besides the failed waits. [Verif/Props/Backends.lean:366; QP]
* `C126_kqueue_refuted` — **C126**, refuted as stated: with `kqueue` a signal ends the loop with an error. [Verif/Props/Backends.lean:430; QP]

## C127 A socket is reported as left only when nothing is left to read — partial

On each platform the event for a ready socket is read when there is something to read, leave when the peer has closed and everything was read, and error otherwise.

Over: all states of sockets

* `C127_select_partial` — **C127**, what holds with `select`: only ready, watched descriptors are reported; `leave` is reported only when there is nothing left to read, and `read` exactly when there is something. [Verif/Props/Backends.lean:463; QP]
* `C127_kqueue_refuted` — **C127**, refuted as stated: with `kqueue` a connection that has unread data and whose peer has closed is reported as left, and the server closes it. [Verif/Props/Backends.lean:481; none]
* `C127_kqueue_partial` — **C127**, what holds with `kqueue`: while the peer has not closed, an event is reported as what it is. [Verif/Props/Backends.lean:485; P]

## C128 Every complete request is answered as if it were alone — proved

Any number of connections carry complete requests one after the other. Whatever the order in which their sockets are reported ready, each report answers the next request of that connection with exactly the bytes a connection carrying only that request would get, and after as many reports as requests none is left unanswered.

Over: all numbers of connections, all sequences of complete requests below 2 GiB with ASCII paths on them, all orders of reports, all handlers that return and do not read the stream themselves

* `C128_answered` — C128: any number of connections, on each any number of complete requests (`texts i`) and then anything else (`later i`), reported readable in any order, none more often than it has requests. Then every report is answered, in the order of the reports, the answer is the one the next request of that connection would get alone, no connection is closed, and what is left of each connection's stream is what follows the answered requests: so after as many reports as requests nothing is left unanswered. [Verif/Props/Progress.lean:17; CQP]

## C129 Reading up to a delimiter can be resumed — proved

When ReadUntil fails before the delimiter has come (a receive timeout), calling it again with the same buffer goes on where it stopped: in the end the buffer and the rest of the stream are what one undisturbed call would give (and it throws if that one throws).

Over: all streams, all delimiters, all ways of cutting the stream into pieces

* `C129_resumed` — C129: a stream comes in any number of pieces, after each of which the receive fails (a timeout, say), and the delimiter is not complete before the last piece. Calling `ReadUntil` again with the same buffer after each failure gives in the end exactly what one call gives on the whole stream: nothing is lost or read twice, also when the delimiter itself comes in pieces; and if the one call throws (C34), so do the calls in a row. [Verif/Props/Resume.lean:148; CQP]

## C130 The client understands the response of any HTTP/1.1 server — partial

However a server delimits the body of its response (Content-Length in any spelling, chunked coding, end of the connection, no body at all after HEAD), Send returns 0 with exactly this body and leaves what follows on the stream.

Over: all responses allowed by HTTP/1.1

* `C130_framed_refuted` — C130 is false for every response that is not framed by a header spelled exactly `Content-Length` (another spelling, the chunked coding, or a body that ends with the connection): `Send` returns 0 with an empty body, and the body stays on the stream, where the next `Send` takes it for its response. [Verif/Props/Interop.lean:203; CQP]
* `C130_chunked_refuted` — C130 is false: after a chunked response `Send` returns 0 with no body, and the next `Send` throws out of `substr` (the length of a chunk of less than 16 bytes brings a line feed among the first three bytes, C34). [Verif/Props/Interop.lean:226; QP]
* `C130_head_refuted` — C130 is false for a response to HEAD: it announces the length of a body that does not follow, and `Send` waits for it; it returns an error when the connection ends, or takes what comes next for the body. [Verif/Props/Interop.lean:234; CQP]
* `C130_no_headers_refuted` — C130 is false for a response without header lines: an error, whatever the status. [Verif/Props/Interop.lean:254; CQP]
* `C130_length_partial` — C130, what holds: the last header spelled `Content-Length` gives the length of the body, which has no NUL byte: `Send` returns 0 with the status, the headers and exactly this body, and leaves what follows on the stream. [Verif/Props/Interop.lean:317; CQP]

## C131 The server understands the request of any HTTP/1.1 client — partial

However a client delimits the body of its request (Content-Length in any spelling, chunked coding), the handlers get exactly this body, and no byte of it is ever taken for another request.

Over: all requests allowed by HTTP/1.1

* `C131_framed_refuted` — C131 is false for every request that is not framed by a header spelled exactly `Content-Length` — one spelled `content-length`, or the chunked coding: the handlers are given an empty body, and the body is left on the stream, where the next report takes it for a request. [Verif/Props/Interop.lean:60; CQP]
* `C131_smuggled_refuted` — C131 is false: a request for `/admin` inside the body of another request is served. [Verif/Props/Interop.lean:80; QP]
* `C131_length_partial` — C131, what holds: the last header spelled `Content-Length` gives the length of the body, which has no NUL byte: the handlers get exactly this body and all headers, and what follows is left on the stream. [Verif/Props/Interop.lean:89; CQP]

## C132 Header names are the same in any case — partial

A header received or added under a name is found under every spelling of the name that differs only in case.

Over: all names and values

* `C132_case_refuted` — C132 is false for all names that differ only in case: what was added (or received) under one is not found under the other. [Verif/Props/Interop.lean:355; CQP]
* `C132_host_refuted` — C132 is false: a request with `host: a` has no host for the library. [Verif/Props/Interop.lean:363; QP]
* `C132_exact_partial` — C132, what holds: under exactly the name it was added with, it is found. [Verif/Props/Interop.lean:367; CQP]

## C133 A handler that throws costs at most its own request — partial

When a handler throws an exception the server goes on; all other connections, and requests for other paths, are served as if it had not happened.

Over: all handlers, all requests, all orders of reports

* `C133_throw_refuted` — C133 is false for every program: when a handler (or filter) throws while a report is handled, the exception leaves `HandleRead`, and the whole run of the server ends with it, whatever other connections have sent. [Verif/Props/Throw.lean:13; CQP]
* `C133_others_refuted` — Connection 1 asked for a page that is fine; it is not answered because connection 0 asked for the other. [Verif/Props/Throw.lean:39; QP]
* `C133_elsewhere_partial` — C133, what holds: a handler that throws does so only for the requests that are routed to it. If the handlers and filters that belong to a path do not throw, requests for this path are handled normally, whatever the handlers of other paths do. (For registrations that do not collide, C40.) [Verif/Props/Throw.lean:49; CQP]

## C134 The thread pool can be used from many threads without a data race — partial

Whatever calls threads and tasks make on one pool at the same time, no two threads ever access the same plain member with one of them writing it and nothing ordering them.

Over: all numbers of threads, all calls, all interleavings

* `C134_accesses` — **C134**: what the threads are said to access is what the pool's actions depend on. An action changes a plain member only if some thread is said to write it; and what happens next does not depend on a member that no thread is said to access. [Verif/Props/Race.lean:359; CQP]
* `C134_queue_partial` — C134, what holds of the queue: however the pool is used, by any number of threads, as long as nobody is destroying it no two threads race for the task queue. [Verif/Props/Race.lean:445; CQP]
* `C134_threads_partial` — C134, what holds of the thread objects: as long as one thread makes all calls but `AddTask` and `GetBusyAndTaskNum`, no two threads race for them. [Verif/Props/Race.lean:478; CQP]
* `C134_in_use_partial` — C134, what holds while the pool is in use: a pool that has been set up with at least one thread (nobody is in a call; how it came to this does not matter), then `AddTask` and `GetBusyAndTaskNum` from any threads and tasks and `Stop` from one thread, in any interleaving: no two threads race for anything until `Stop` has cleared the flag; and after that at most for the error text. [Verif/Props/Race.lean:494; CQP]
* `C134_refused_refuted` — C134 is false for every pool that is stopped or not set up: two threads that call `AddTask` at the same time both write the error text. [Verif/Props/Race.lean:592; P]
* `C134_init_refuted` — C134 is false for every running pool: `AddTask` in one thread and `Init` in another race for the number of threads. [Verif/Props/Race.lean:613; P]
* `C134_two_stops_refuted` — C134 is false for every running pool: two threads that call `Stop` at the same time can both join the same thread. [Verif/Props/Race.lean:627; P]

## C135 The nodes of a trie are freed once, and used only before — proved

For every history of Set and Reset with keys of 7-bit characters, with Get and Search in between, and then the destruction of the trie: every node that was allocated is deleted exactly once, none is used after it was deleted, and Reset leaves only the new root.

Over: all histories of calls, all keys of 7-bit characters, all callbacks

* `C135_freed_once` — C135: any history of `Set` and `Reset` with keys of 7-bit characters on a new trie, then its destruction: nothing is used that is not alive, the recursion ends, and the nodes that were deleted are exactly the nodes that were made, each once. [Verif/Props/TrieHeap.lean:133; CQP]
* `C135_reset` — C135, between the calls: whatever the history, `Reset` as its last call leaves one node alive, the new root. [Verif/Props/TrieHeap.lean:148; CQP]
* `C135_reads_alive` — C135, while the trie lives: after any history, `Get` and `Search` with any key of 7-bit characters and any callback touch only nodes that are alive, and see the map of the history. [Verif/Props/TrieHeap.lean:175; CQP]

## C136 A copy of a trie is a trie of its own — partial

A trie can be copied; changing, resetting or destroying the copy does not concern the original.

Over: all tries

* `C136_copy_refuted` — C136 is false for every trie: when a trie and its copy are both destroyed, the second destructor uses a deleted node. [Verif/Props/TrieHeap.lean:207; CQP]
* `C136_reset_refuted` — C136 is false for every trie: after `Reset` on a copy, every `Get`, `Search`, `Set` or `Reset` on the original uses a deleted node. [Verif/Props/TrieHeap.lean:219; CQP]

## C137 A file logger does not race with its own worker — partial

A file logger that is used by one thread never accesses a plain variable (the text and time of a buffer, the path) that its own worker is accessing at the same time, one of the two writing.

Over: all histories of calls, all interleavings of the thread and the worker, all file system failures

* `C137_text_partial` — **C137** (the buffered text). A logger that one thread uses never races with its own worker for the text of a buffer, whatever the two do, however the pool schedules them and whatever the file system does, as long as the number of buffers is at least one and set before `Init`. [Verif/Props/LogRace.lean:58; CQP]
* `C137_stop` — **C137** (`Stop`). Once `Stop` is past the pool, and until it returns, nothing races at all. [Verif/Props/LogRace.lean:66; CQP]
* `C137_path_partial` — **C137** (the path). A call of `Init` on a logger that was not initialised, or was stopped, does not race with the worker for the path. [Verif/Props/LogRace.lean:78; CQP]
* `C137_accesses` — **C137**: what the two threads are said to do with the text of a buffer is what they do. A step changes the text only if one of them is said to write it, and what happens next does not depend on a text that neither is said to access. [Verif/Props/LogRace.lean:131; QP]
* `C137_time_refuted` — C137 is false of the time of the last flush, in ordinary use: two buffers, no fault, no call but `Init` and logging. The worker marks a buffer as free before it stores the time, and the logging thread may by then be asking for that time. [Verif/Props/LogRace.lean:322; CQP]
* `C137_path_refuted` — C137 is false of the path if `Init` is called on a logger that is in use: it assigns the path before anything else, and the worker may be copying it. [Verif/Props/LogRace.lean:336; CQP]

## C138 A server in several threads has no data race — partial

While an HttpServer runs in the multi-thread or the mixed mode, no two of its threads, nor one of them and a thread that calls Stop, access the same variable of the library at the same time with one of them writing it.

Over: all schedules of the thread in Run, the pool's workers and a thread that calls Stop; all connections, requests and handlers; plain and TLS; both modes; any logger and any table of content types

* `C138_only_partial` — **C138** (what can race at all). While a server runs in several threads, the only variables that can race are: the table of the custom content types; with TLS the map of the sessions and the context's error text; with a `FileLogger` its buffers; and, if `Stop` is called, the flags, the error text and the descriptors of the server; and, in the multi-thread mode or if `Stop` is called, the variable in which `Address` hands the length of an address to the system. In particular the routes never race. [Verif/Props/ServerRace.lean:71; CQP]
* `C138_plain_partial` — **C138** (what holds). A plain server with the default logger, with any number of workers and whatever the requests, while nobody calls `Stop` or destroys it and `StaticDir` serves no file of a custom content type, has no data race at all in the mixed mode, and in the multi-thread mode none but on the length of an address (see `C138_length_refuted`). [Verif/Props/ServerRace.lean:292; CQP]
* `C138_changes_partial` — **C138** (the accesses are complete). An action changes none of the server's variables without being said to write it. [Verif/Props/ServerRace.lean:329; CQP]
* `C138_one_partial` — **C138** (one at a time). With the default logger, and while nobody calls `Stop` or destroys the server, nothing races as long as only one connection is being served, with TLS or without, but for the length of an address in the multi-thread mode. [Verif/Props/ServerRace.lean:398; CQP]
* `C138_tls_refuted` — **C138 is false** for a TLS server in the multi-thread mode: two connections whose handshakes end at the same time write the map of the sessions at the same time; and a connection with a session that sends a request looks its session up while the session of another connection is put into the map. [Verif/Props/ServerRace.lean:456; QP]
* `C138_types_refuted` — **C138 is false** for a plain server: after `SetCustomContentType`, two requests for files of that type that a `StaticDir` serves write the table of the custom content types at the same time. [Verif/Props/ServerRace.lean:477; QP]
* `C138_log_refuted` — **C138 is false** for a server that logs to a file: two connections are greeted in the log at the same time. [Verif/Props/ServerRace.lean:488; QP]
* `C138_stop_refuted` — **C138 is false** for `Stop`: it writes the flag that the thread in `Run` is reading, and the one that is read after every handler. [Verif/Props/ServerRace.lean:497; QP]
* `C138_length_refuted` — **C138 is false** for every server in the multi-thread mode, whatever its settings and with one worker already: while the address of a new connection is asked for, the thread in `Run` accepts the next connection, and both write the length of an address. [Verif/Props/ServerRace.lean:518; QP]

## C139 When Run has returned, no handler runs any more — partial

When HttpServer::Run has returned, no handler is running and none will run, so that the server and what the handlers use can be destroyed.

Over: all schedules; all ways in which Run returns; all connections and handlers

* `C139_success_partial` — **C139** (what holds). When `Run` has returned success, no handler is running, none will run any more whatever happens next, and the destructor frees nothing that is in use. [Verif/Props/ServerRace.lean:706; QP]
* `C139_failure_refuted` — **C139 is false** when an `accept` fails: `Run` returns the error while a handler of an earlier connection goes on, and a destructor that is called then frees the routes that the handler's request is still being looked up in. [Verif/Props/ServerRace.lean:741; QP]

## C140 Header fields and route parameters are maps — proved

After any sequence of the calls that fill in a header (Add, operator[], SetHost, SetContentType, SetContentLength, SetLongConnection, Clear), Get returns for every name the value stored last since the last Clear, the empty string if there is none, and the typed readers report the same value; likewise for AddParam, operator[], SetPath and Clear of a route with GetParam and GetPath.

Over: all sequences of calls, all names and values

* `C140_headers` — C140: after any sequence of calls of `Add`, `operator[]`, `SetHost`, `SetContentType`, `SetContentLength`, `SetLongConnection` and `Clear`, `Get` returns, for every name, the value that was stored last since the last `Clear`, and the empty string if there is none. [Verif/Props/Builders.lean:75; CQP]
* `C140_typed` — C140: the typed readers report what was stored under their name: `GetHost` its text, `GetContentType` the built-in type with that name, `GetContentLength` the number that was set, -1 if there is none. [Verif/Props/Builders.lean:120; CQP]
* `C140_params` — C140: after any sequence of calls of `AddParam`, `operator[]`, `SetPath` and `Clear`, `GetParam` returns, for every name, the value that was stored last since the last `Clear`, and the empty string if there is none; `GetPath` returns the path that was set last. [Verif/Props/Builders.lean:205; CQP]

## C141 Reading a header or a parameter changes nothing — partial

Looking up a name with operator[] of a header or a route, without assigning to it, gives the value and changes neither the object nor the text that is sent.

Over: all headers, routes and names, whether the name is there or not

* `C141_values_partial` — C141, the part that holds: reading with `operator[]` gives the value `Get` gives, and changes no value that `Get` and `GetParam` return; the object is unchanged if the name is there. [Verif/Props/Builders.lean:268; CQP]
* `C141_header_refuted` — C141 is false: looking up a header that is not there with `operator[]` makes the text of the header longer by a line for it, for every header and every name. [Verif/Props/Builders.lean:306; CQP]
* `C141_text_refuted` — C141 is false: the text of a request changes when the server's or the client's code merely reads a missing header and a missing parameter with `operator[]`. [Verif/Props/Builders.lean:319; QP]

## C142 A request made with GET or POST carries exactly what it was given — partial

After GET(url, params, headers), POST(url, body, headers) or POST(url, params, headers) the request has that method, HTTP/1.1, that path, those parameters (in the URL, or in the body as a form), those headers and that body, and nothing else; and this is what the receiver parses.

Over: all URLs, parameters, headers and bodies, all orders of the hash tables, all earlier uses of the request object

* `C142_get_partial` — C142, the part that holds for every request object, whatever was in it: `GET` sets the method, the version, the path, the given parameters and the given headers; parameters and headers of other names and the body are those the object had. [Verif/Props/Builders.lean:349; CQP]
* `C142_post_partial` — C142, the part that holds for every request object: `POST` with a body sets the method, the version, the path, the body and the given headers; the parameters of the URL and the headers of other names are those the object had. [Verif/Props/Builders.lean:367; CQP]
* `C142_get_fresh_partial` — C142: with a new or cleared request object, `GET` makes a request with exactly the given path, parameters and headers and an empty body. [Verif/Props/Builders.lean:388; CQP]
* `C142_post_fresh_partial` — C142: with a new or cleared request object, `POST` with a body makes a request with exactly the given path, body and headers and no parameters in the URL. [Verif/Props/Builders.lean:399; CQP]
* `C142_form_fresh_partial` — C142: with a new or cleared request object, `POST` with parameters makes a request whose body is the text of a form with exactly these parameters, in some order. [Verif/Props/Builders.lean:433; CQP]
* `C142_form_items_partial` — C142: if no name has a `=` or `&` in it and no value a `&`, the items between the `&` of the body are `name=value` for exactly the given parameters. [Verif/Props/Builders.lean:446; CQP]
* `C142_get_wire_partial` — C142, end to end: what `GET` with a new or cleared object was given is what the server's `HttpReq::Parse` reads, if path, parameters and headers survive the wire (`Host` and `Content-Length` are added by `Build`). [Verif/Props/Builders.lean:502; CQP]
* `C142_post_wire_partial` — C142, end to end: the same for `POST` with a body, which arrives byte for byte (below 2 GiB the announced length is its length). [Verif/Props/Builders.lean:532; CQP]
* `C142_reuse_refuted` — C142 is false for an object that is used again: a parameter, a header or a body of the first request that the second call does not mention is sent once more with the second. [Verif/Props/Builders.lean:570; QP]
* `C142_chop_refuted` — C142 is false for an object that is used again: `POST` with an empty set of parameters removes the last byte of the old body, whatever it is. [Verif/Props/Builders.lean:581; QP]
* `C142_form_refuted` — C142 is false for the form: names and values are not encoded, so that different parameters make the same body. [Verif/Props/Builders.lean:593; QP]

## C143 IsFile and IsDir tell what is there — proved

IsFile (and Exist) say whether there is a regular file under the path, IsDir whether there is a directory. After any calls of Write, Append, Create and Remove there is a file exactly if the last successful call for that path made one; no call removes a directory, and only Create makes one. Write and Append where the parent directory is missing fail and change nothing.

Over: all trees of files, all sequences of calls, all paths, all refusals and short writes of the system

* `C143_kind` — C143: `IsFile` and `IsDir` tell what is under the path, and never both say yes. [Verif/Props/FileKind.lean:311; QP]
* `C143_history` — C143: after any calls of `Write`, `Append`, `Create` and `Remove` for any paths, whatever the system answered, `IsFile` (and `Exist`) of any path that is not a device says yes exactly if the last call that made or removed a file there made one (as it was before, if there was no such call). [Verif/Props/FileKind.lean:323; QP]
* `C143_dirs` — C143: no call makes a directory disappear, and a directory appears only by a `Create` of something inside it. [Verif/Props/FileKind.lean:337; QP]
* `C143_no_parent` — C143: `Write` and `Append` make no directories: where the parent is not a directory, a missing file stays missing, the caller is told and nothing is changed. [Verif/Props/FileKind.lean:367; P]
* `C143_not_a_dir` — C143: `Write` and `Append` of a directory fail and change nothing. [Verif/Props/FileKind.lean:374; P]

## C144 The command line is what the program gets — proved

In the programs built on the demo utilities, GetOption tells whether a name is given on the command line, with any number of dashes and with or without a value; GetVar gives the value of the first argument with the name (everything after the first =), and nothing if there is none.

Over: all command lines, all names

* `C144_command_line` — C144: for every command line (C strings hold no NUL), `GetOption` is true exactly for the names that are given, and `GetVar` gives the value of the first argument with the name, and nothing if there is none. [Verif/Props/CommandLine.lean:170; CQP]
* `C144_one_meaning` — C144: every argument has exactly one meaning. [Verif/Props/CommandLine.lean:198; CQP]

## C145 A required option that is missing stops the program — partial

Run calls the program exactly when everything that was declared as required is given and neither help nor the version is asked for; otherwise it prints the version, or a usage text with a line for each declared option and variable.

Over: all command lines, all declarations in any order, all orders of the hash table

* `C145_exact_partial` — C145, exactly: for every command line and every order of the calls before it, `Run` calls the program `f` exactly if `f` was assigned last, everything required *since then* is given, and neither help nor the version is asked for. [Verif/Props/CommandLine.lean:368; CQP]
* `C145_required_partial` — C145, what holds: if the required options are declared after the program was assigned, `Run` calls the program exactly if nothing required is missing and neither help nor the version is asked for. Missing: options that are declared before, which are not required (`C145_order_refuted`). [Verif/Props/CommandLine.lean:379; CQP]
* `C145_order_refuted` — C145 is false: an option that is declared as required before the program is assigned is not required. [Verif/Props/CommandLine.lean:449; QP]
* `C145_usage` — C145: when help is asked for, or something required (after the program was assigned) is missing, or there is no program, a text is printed that tells the name and the version that were set last and the usage lines, has a line for each declared option and variable (the first declaration counts, if a name is declared twice), whatever the order of the hash map, and ends with the lines for help and version. [Verif/Props/CommandLine.lean:551; CQP]
* `C145_version` — C145: when the version is asked for, but no help, and nothing required (after the program was assigned) is missing, the version that was set last is printed. [Verif/Props/CommandLine.lean:627; CQP]

## C146 A guarded program is started again exactly when the handler wants it — partial

Guard starts the program in a child, tells the exit code handler how the child ended, and starts the next child exactly if the handler says so (always, if there is none). The guardian itself never runs the program.

Over: all sequences of child ends, all answers of the handler, all failures of fork and waitpid

* `C146_restarts` — C146: as long as the handler wants to go on, the guardian starts a child in each round, one after the other, tells the handler how it ended, and does not return; the round in which the handler does not want to go on is the last one. [Verif/Props/Guardian.lean:110; QP]
* `C146_no_handler` — C146: without a handler the guardian never returns and starts a child in every round in which the system lets it. [Verif/Props/Guardian.lean:165; P]
* `C146_guardian_serves_refuted` — C146 is false: when the child of the web server has ended normally, the guardian itself leaves `Guard`, that is, it starts the server once more in its own process. [Verif/Props/Guardian.lean:197; QP]
* `C146_fork_refuted` — C146 is false: when no child can be started, the handler is told that it ended normally, and the guardian leaves `Guard`. [Verif/Props/Guardian.lean:206; P]

## C147 A signal to the guardian ends its child, and nothing else — partial

When the guardian or a guarded program gets SIGINT, SIGQUIT or SIGTERM it ends; the guardian passes SIGINT on to the child that is running. No other process is signalled.

Over: all histories of starts and ends of children, all times of the signal

* `C147_last_child_partial` — C147, what holds: a guardian that could start each of its children and is told to end sends SIGINT to the child it started last, and to nobody else; before the first child it sends nothing. Missing: rounds in which `fork` fails (`C147_fork_refuted`); the children themselves (`C147_child_refuted`). [Verif/Props/Guardian.lean:216; CQP]
* `C147_first_child_partial` — C147: each child inherits the `child_pid_` of its elder: told to end, the first one sends no signal. [Verif/Props/Guardian.lean:252; QP]
* `C147_fork_refuted` — C147 is false: after a failed `fork` a guardian that is told to end sends SIGINT to every process of the system. [Verif/Props/Guardian.lean:259; QP]
* `C147_child_refuted` — C147 is false: a child that was started after a crash and is told to end sends SIGINT to the number of its crashed elder, whoever has that number now. (`kill(502, SIGINT)` by the guardian makes child 502 do that.) [Verif/Props/Guardian.lean:272; P]
* `C147_reaped_refuted` — C147 is false: while the guardian waits to start the next child, it signals a child that was collected already. [Verif/Props/Guardian.lean:278; none]

## C148 stop and reload reach the running server — partial

Calling the web server with -stop sends SIGINT to the server that was started before, and to no other process, and starts nothing; -reload does the same and then starts a server.

Over: all contents of the pid file and of the configuration, all command lines

* `C148_signals` — C148: whatever the pid file holds, `_main` signals at most one process, with SIGINT, never one with a number up to 66 (and so never a whole group of processes), and only when `stop` or `reload` is asked for. [Verif/Props/WebServer.lean:18; QP]
* `C148_stop_partial` — C148, what holds: a server that was started in the background under a pid above 66 and could write its pid file is signalled by `-stop` and by `-reload`, as long as nothing else writes the file and it can be read: exactly it, with SIGINT; `-stop` starts nothing, `-reload` goes on with the configuration. Missing: servers in the foreground (`C148_foreground_refuted`), a missing pid file (`C148_no_file_refuted`). [Verif/Props/WebServer.lean:81; QP]
* `C148_foreground_refuted` — C148 is false: a server that runs in the foreground writes the pid 0, and `-stop` does not stop it. [Verif/Props/WebServer.lean:108; QP]
* `C148_no_file_refuted` — C148 is false: without a pid file `-stop` starts a server. [Verif/Props/WebServer.lean:129; QP]
* `C148_stale_refuted` — C148 is false in another way: nobody removes the pid file. Once a server that ran in the background has ended, each further `-stop` sends SIGINT to whoever has its number now, and reports success: `later` is any later file system in which the file was not written again. [Verif/Props/WebServer.lean:150; QP]
* `C148_reload_refuted` — C148 is false for `-reload` with a configuration that is missing or wrong: the running server is ended first, and then none is started. [Verif/Props/WebServer.lean:168; QP]

## C149 The web server does what its configuration says — partial

For every item of the configuration and the requests it is about, for the right host: a redirect is answered with 302 and the configured location, a static file with the contents of the file, a path below a static directory with the file of that name. The server listens on the configured address, with TLS if there is a certificate.

Over: all configurations, all requests, all file systems

* `C149_items_partial` — C149, what holds: if no route of the configuration is a proper prefix of the route of an earlier item (redirects come first), and exactly one item is about the path of a request, the server does for the request what the item says. Missing: routes in another order, for which the shipped configuration itself is an example (`C149_shipped_refuted`); requests several items are about (C40 tells what is called then, C42 that all of them are). [Verif/Props/WebServer.lean:459; CQP]
* `C149_shipped_refuted` — C149 is false for the configuration that is shipped with the program: it asks for the index page at `/` and for a redirect at `/hello`, but `GET /` is answered with 404, and `GET /hello` with the index page. [Verif/Props/WebServer.lean:546; QP]
* `C149_config` — C149: without `stop` and `reload` nobody is signalled, and a server is started exactly if the file that `config` names, or `./config.json`, can be opened and read and the parser takes its contents; it is started with what the parser made of them. (A device, and a directory where reading one does not throw, read as nothing.) [Verif/Props/WebServer.lean:556; QP]
* `C149_directory_refuted` — C149 is false: a configuration file that is a directory is not reported, the program dies of the exception (with a library that throws when a directory is read). [Verif/Props/WebServer.lean:622; P]
* `C149_port_refuted` — C149 is false: the port is cut to 16 bits. [Verif/Props/WebServer.lean:635; none]
* `C149_address_partial` — C149: ports from 0 to 65535 and the host are used as they are configured. [Verif/Props/WebServer.lean:639; QP]

## C150 In the modes with several threads every task keeps to its own connection — partial

Whatever a callback does with the socket it is given, and whatever the server does for it afterwards, reaches the connection the callback was called for, even if connections come and go in the meantime and the system gives their descriptor numbers to new connections.

Over: all schedules of the loop and the tasks, all numbers of connections, all reuses of descriptor numbers, all callbacks

* `C150_multithread_partial` — C150, what holds in the multi-thread mode: with callbacks that close a connection only when they are told that its peer has left, whatever the number of connections, however the tasks are interleaved and whichever free numbers the system gives to new connections, every system call of a task reaches the connection the task was made for, and no connection is closed by anybody else. [Verif/Props/FdReuse.lean:279; CQP]
* `C150_mixed_partial` — C150, what holds in the mixed mode: with callbacks that close nothing, and if no peer leaves while a task of its connection is waiting or running, every system call reaches the connection it was meant for. [Verif/Props/FdReuse.lean:509; CQP]
* `C150_multithread_refuted` — C150 is false in the multi-thread mode: whenever a callback closes its socket on a read, whatever else it does and whatever the number of the descriptor, the task goes on to peek at the number; if the next client has got this number by then, the task of the first client reads from the connection of the second. [Verif/Props/FdReuse.lean:597; CQP]
* `C150_http_server_refuted` — The callback of `HttpServer` is of this kind, since it closes a connection on a bad request, and on the accept if it cannot get the address: the task goes on and reads from the next connection in both cases. One that never drops a connection closes nothing (and leaks them all, C62). [Verif/Props/FdReuse.lean:625; CQP]
* `C150_mixed_refuted` — C150 is false in the mixed mode, even with callbacks that close nothing: the connection is closed because its peer has left while a task of it still waits in the queue, the next client gets its number, and the waiting task reads from that connection. [Verif/Props/FdReuse.lean:642; CQP]

## C151 A message that cannot be parsed or built says why — proved

Whenever Parse or Build of a request or a response returns an error, err_msg() afterwards is a text that names what is wrong with this message, whatever was parsed before with the same object; if nothing is wrong they succeed and leave err_msg() alone. The server's 400 answer carries that text.

Over: all texts, all states of the object including earlier failures

* `C151_request` — C151, requests: whenever Parse returns, whatever the text, the request object and the messages before: after an error `err_msg()` names what is wrong with the text; after success nothing is, and the message is left as it was. [Verif/Props/ErrText.lean:269; CQP]
* `C151_request_build` — C151, building a request: Build fails exactly if the method or the version is not set, and then says so; otherwise it leaves the message alone. [Verif/Props/ErrText.lean:355; QP]
* `C151_response_build` — C151, building a response: Build fails exactly if no status was set, and then says so. [Verif/Props/ErrText.lean:368; QP]
* `C151_response` — C151, responses: whenever Parse returns, whatever the text, the response object and the messages before: after an error `err_msg()` names what is wrong with the text; after success nothing is, and the message is left as it was. [Verif/Props/ErrText.lean:531; CQP]
* `C151_server` — C151, the server: a client whose request head cannot be parsed gets one 400 answer whose body names what is wrong with the head; then the connection is closed, and no handler has run. [Verif/Props/ErrText.lean:711; CQP]

## C152 A server that cannot start, or a client that cannot connect or send, says why — partial

If Init of a server, or Init, InitSSL or Send of a client, returns an error, err_msg() afterwards names what went wrong first: the system call that failed with the system's reason, the invalid address, the failed handshake with OpenSSL's reason, or what is wrong with the request or with what the server answered. If they succeed err_msg() is left alone.

Over: all answers of the system, all servers and modes, all requests, all byte streams received

* `C152_tcp_init_partial` — C152, what holds for `TcpServer::Init`: if it fails, and not because the listening socket cannot be watched, `err_msg()` names the first thing that went wrong. If it succeeds the message is left as it was. [Verif/Props/StartErr.lean:19; CQP]
* `C152_watch_refuted` — C152, where the code fails: if the listening socket cannot be watched (`epoll_ctl` fails), `Init` fails with the message `[syserr]:` and nothing behind it, whatever the reason. [Verif/Props/StartErr.lean:110; QP]
* `C152_http_init_partial` — C152, what holds for `HttpServer::Init`: the message is that of the underlying server, so it names the first thing that went wrong (again unless the listening socket cannot be watched). If `Init` succeeds the message is left as it was. [Verif/Props/StartErr.lean:142; CQP]
* `C152_client_init` — C152, the plain client: `Init` fails exactly if there is no socket or the connection is refused, and the message then holds the system's text for that; otherwise it is left as it was. [Verif/Props/StartErr.lean:163; QP]
* `C152_tls_init_partial` — C152, what holds for the TLS client: `InitSSL` names the failure, if it is not the handshake that fails. [Verif/Props/StartErr.lean:181; QP]
* `C152_handshake_refuted` — C152, where the code fails: after a failed TLS handshake the message is the text of `errno`, whatever OpenSSL says. [Verif/Props/StartErr.lean:211; QP]
* `C152_send_partial` — C152, what holds for `Send`: if the request was written, then after a failure the message names what was wrong with the request or with what came back, if either nothing came back or a complete header did (and it announces no body over 2 GB less a page); after success the message is left as it was. [Verif/Props/StartErr.lean:258; CQP]
* `C152_cut_refuted` — C152, where the code fails: if the connection ends or fails inside the header of the response, `Send` says that the response is empty, whatever has been received. [Verif/Props/StartErr.lean:352; QP]

## C153 The hello-world program answers every request — proved

The server of the README answers every complete request on a connection with exactly one answer, in order: a request for / with the page, status 200 and the right length, any other path with the 404 page; nothing else is written, no connection is closed, and the library's own parser reads the page back.

Over: all requests below 2 GiB with ASCII paths (methods, headers, queries, bodies), all numbers of requests on a connection, all bytes behind them, all header orders

* `C153_hello` — C153: the hello-world program answers every complete request exactly once, in the order of the requests on the connection and whatever comes behind them: a request for `/`, of any method and with any headers, query and body, with the page, any other with the 404 page; nothing else is written and no connection is closed. [Verif/Props/Demos.lean:151; CQP]
* `C153_client` — C153: the library's own response parser reads the page back: status 200, the page as the body. [Verif/Props/Demos.lean:197; QP]

## C154 The demo server answers as its source asks — proved

simple-http-server answers every complete request with exactly one answer: GET / with the index file, /hello with its text, /world with the redirect, GET of another path with the file of that name in the directory if there is one, everything else (and every path with ..) with the 404 page.

Over: all requests with ASCII paths, all file systems whose files can be read, all bytes behind the request

* `C154_simple` — C154: `simple-http-server` answers every complete request with exactly one answer, which is the one its source asks for. [Verif/Props/Demos.lean:559; CQP]

## C155 The mnist program answers as its source asks — partial

The mnist program answers a posted picture of 28 times 28 numbers with the prediction as JSON, any other posted body with 400 and a JSON message, and GET / with its page.

Over: all bodies, all answers of the JSON library and of the network, all file systems

* `C155_picture_partial` — C155, what holds: the `mnist` program answers a posted picture with the prediction for it (given row by row), and nothing is read outside the picture; paths other than `/mnist` get the 404 page. [Verif/Props/Demos.lean:865; CQP]
* `C155_bad_body_refuted` — C155 is false for every body that is not a picture: instead of the answer 400 the program reads `result`, which was never written. [Verif/Props/Demos.lean:899; CQP]
* `C155_index_refuted` — C155 is false for the page itself: whatever is in `./index.html`, a request for `/` gets the 404 page, since `StaticFile("/")` was attached to `/mnist` (C40). [Verif/Props/Demos.lean:923; CQP]

## C156 Address::Init understands exactly the numbers-and-dots notation — proved

Init stores every text in the notation of inet_addr (one to four numbers, decimal, octal or hexadecimal, the last one filling the bytes that are left, anything after white space ignored) as the address it stands for, and every other text as 255.255.255.255. It always succeeds. GetIP gives the address as a dotted quad, which Init reads back as the same address.

Over: all byte strings, all ports

* `C156_notation` — C156: `Init` succeeds on every text. A text in the numbers-and-dots notation (one to four numbers, decimal, octal or hexadecimal, the last one filling the bytes that are left) is stored as the address it stands for; every other text is stored as 255.255.255.255. `GetIP` then gives the address as a dotted quad. [Verif/Props/AddressText.lean:389; CQP]
* `C156_stable` — C156: a text stands for at most one address, and the stored address always reads back as itself: writing out what `GetIP` gives and reading it again changes nothing. [Verif/Props/AddressText.lean:402; CQP]

## C157 A Send returns the answer to its own request — partial

Whatever happened before on the client (requests that could not be built, Sends that timed out, reconnections), a Send that returns success has given back the answer to its own request.

Over: all histories of Sends in time, Sends whose answer is late, and Close followed by Init; all servers whose answers can be put on the wire

* `C157_queue_partial` — C157, the exact behaviour: in every history of `Send`s in time, `Send`s that time out, and reconnections, each `Send` returns the oldest answer that has not been read on this connection. So as long as no `Send` has timed out since the connection was made, every `Send` returns the answer to its own request; requests that cannot be built do no harm. [Verif/Props/LateAnswer.lean:87; CQP]
* `C157_behind_refuted` — C157, refuted: after a `Send` that timed out, the next `Send` on the connection returns success with the answer to the earlier request; and so it goes on, one behind, with every later one. [Verif/Props/LateAnswer.lean:156; CQP]
* `C157_in_time_partial` — C157: with no timeout, every `Send` of a request that can be built returns the answer to it, also after requests that could not be built. [Verif/Props/LateAnswer.lean:203; CQP]

## C158 A task may use its own pool, and fails alone — partial

A task may call every function of the pool that runs it and gets its answer, and an exception that leaves a task costs that task only.

Over: all interleavings of any number of threads, all tasks, with any calls from inside tasks, and exceptions at any time

* `C158_caught_refuted` — C158 is false for a task that stops its own pool even if it catches the exception it gets. The task of worker `w` has called `Stop` (or `Resize`), nobody else has asked for the pool to be stopped, and the task catches what the call throws. Whatever any thread does from then on, every new `AddTask` is refused, no new `Init` returns, and the pool is never destroyed: a client that destroys it ends the program. [Verif/Props/PoolCaught.lean:180; CQP]
* `C158_gets_partial` — C158, what a task gets back from its own pool, in every execution: from `AddTask` 0 or -2, from `GetBusyAndTaskNum` two numbers; `Init` and the destructor never return to it; `Resize` returns only if it asked for no change; `Stop` returns only if another thread or task has asked for the pool to be stopped. [Verif/Props/PoolTask.lean:18; CQP]
* `C158_answered_partial` — C158, the calls that are safe: a call of `AddTask` or `GetBusyAndTaskNum`, made by a task (or any thread) at any time, can always come to its answer without a new call, a spurious wake-up or an exception, and without any running task having to end. [Verif/Props/PoolTask.lean:83; CQP]
* `C158_throw_refuted` — C158 is false for a task that fails: whatever the pool is doing, an exception that leaves a task ends the program; and this happens while another task is running and one more is waiting. [Verif/Props/PoolTask.lean:101; CQP]
* `C158_stop_refuted` — C158 is false for a task that stops its own pool, resizes it, initialises it again or destroys it: each of these ends the program, although no task throws. [Verif/Props/PoolTask.lean:288; CQP]
* `C158_left_refuted` — C158 is false in another way: a task that stops the pool and a client that stops it at the same time; the client's `Stop` has returned, the task has not, and the task's thread is still running in the pool that the client takes for stopped. [Verif/Props/PoolTask.lean:314; CQP]

## C159 Host tells the machine's name and address — partial

GetLocalName returns the machine's name. GetLocalIP returns an address of the machine as a dotted quad that Address::Init reads as this address, or the empty text, so that an Address made of it is an address of this machine or cannot be made.

Over: all machine names Linux allows, all answers of gethostname and gethostbyname

* `C159_name` — C159: on every Linux machine `GetLocalName` returns the machine's name, and the empty text if the machine does not tell it. [Verif/Props/Host.lean:12; QP]
* `C159_address_partial` — C159, what holds of the address: `GetLocalIP` returns the first address found for the machine's name, as a dotted quad that `Address::Init` reads as exactly this address; if nothing is found it returns the empty text. [Verif/Props/Host.lean:23; CQP]
* `C159_broadcast_refuted` — C159 is false where nothing is found for the name (a machine without an entry for itself): `GetLocalIP` gives no error but the empty text, which `Address::Init` takes for 255.255.255.255, reporting success. [Verif/Props/Host.lean:48; CQP]
* `C159_long_name_partial` — C159, why the size of the buffer matters: with a name of 512 bytes or more, which Linux does not allow, both functions would read beyond it. [Verif/Props/Host.lean:53; QP]

## C160 A connection that cannot be accepted costs only itself — partial

When a connection cannot be accepted (the peer has given up, no descriptor is left) or the accepted descriptor cannot be watched, the callback is told, an accepted descriptor is closed, and everything else happens as if the connection had never been attempted; the event loop goes on.

Over: all servers, all histories of the event loop in every mode, all connections that fail at any moment

* `C160_multiplexed_partial` — **C160**, what holds in the modes with epoll: whatever else happens in a run of the event loop, connections that cannot be taken change nothing but what is reported about them. The run without them ends in the same way, with the server in the same state, and does everything else in the same order. Missing: the multi-thread mode, see the refutation, and callbacks that do something when they get the error. [Verif/Props/Accept.lean:160; QP]
* `C160_multithread_refuted` — **C160**, refuted for the multi-thread mode: the first `accept` that fails (because the peer has given up meanwhile, or no descriptor is left, or a signal arrives) ends the event loop with an error, whatever connections would come afterwards. The listening socket stays open, and the thread pool is not stopped. [Verif/Props/Accept.lean:194; QP]

## C161 The programs of the README work — partial

The README's HTTP client gets the greeting of the README's HTTP server, in whatever order either writes its header lines. The README's socket client writes its greeting, reads the answer and closes the connection.

Over: all orders of the header containers, all answers of the system calls

* `C161_http_partial` — **C161**, what holds of the README: its HTTP client and its HTTP server understand each other, whatever the order of the hash maps in the two programs. The server reads the client's request as a request for `/` and writes the page, once; and when that arrives, the client's `Send` succeeds and its response holds the page, and builds to a text that is the server's answer up to the order of the two header lines. Missing: the other client, see the refutation. [Verif/Props/Readme.lean:119; CQP]
* `C161_socket_refuted` — **C161**, refuted for the client that uses a `Socket`: when everything works and the whole message is sent, it says that writing went wrong and returns 11, whatever the server answers. It does not read, and does not close the connection. [Verif/Props/Readme.lean:142; P]
* `C161_socket_partial` — **C161**, what holds of that client: when the socket cannot be created or the connection not be made, or nothing can be sent, it says so, returns the error and does nothing more with the connection. [Verif/Props/Readme.lean:151; QP]

## C162 A message costs no more memory than its sender has sent — partial

Whatever bytes a peer sends, the block of memory the library asks for to hold the body of a message is no larger than what that peer has sent, so that no peer can make a server (or a client) ask for memory by announcing it, and a program whose memory is limited is not ended by a message it has not received.

Over: all byte streams, handlers, requests, hash orders and amounts of free memory

* `C162_server_partial` — **C162**, what holds: a complete request makes the server ask for no larger block than the request is long, whatever follows it; and any bytes at all for no larger one than 2 GiB. If the block can be made, or 2 GiB can, the request is served as with unlimited memory. Missing: incomplete requests, see the refutation. [Verif/Props/Memory.lean:38; CQP]
* `C162_server_refuted` — **C162**, refuted: a client that sends one header of 47 bytes makes the server ask for 2 GiB before anything of the body has arrived, whatever the server's handlers are, also if there is no handler for the path. If it does not get them the program ends. [Verif/Props/Memory.lean:116; CQP]
* `C162_client_partial` — The client's half of **C162**, what holds: when `Send` gets its answer, the block it asked for is no larger than what it took from the stream; no answer makes it ask for more than 2 GiB; and if the block can be made, or 2 GiB can, `Send` does what it does with unlimited memory. [Verif/Props/Memory.lean:143; CQP]
* `C162_client_refuted` — The client's half of **C162**, refuted: a server that sends 47 bytes makes the client ask for 2 GiB. [Verif/Props/Memory.lean:236; CQP]

## C163 A line on the console is not torn — partial

Every line that a program logs to the console is shown whole: its tag, its message and the end of the line follow one another, whatever other threads log at the same time.

Over: all messages and levels, any number of threads, all interleavings of what they write

* `C163_one_thread` — **C163**, one thread: the console shows exactly the lines of its calls, one after the other. [Verif/Props/LogThreads.lean:78; QP]
* `C163_pieces_partial` — **C163**, what holds for several threads: nothing is lost or invented. Every thread's pieces are on the console in its own order, and each character is there as often as all the lines together contain it, so that in particular there are as many ends of lines. Missing: that the pieces of one line stay together, see the refutation. [Verif/Props/LogThreads.lean:98; QP]
* `C163_refuted` — **C163**, refuted: two threads that log one line each, at the same time, may leave two tags on one line. [Verif/Props/LogThreads.lean:121; QP]

## C164 A line in a log file carries the time of its own call — partial

The time stamp that FileLogger writes before a message is the time at which this message was logged, also when other threads log to other files at the same moment.

Over: all clocks and time zones, any number of threads, all interleavings of the calls

* `C164_one_at_a_time_partial` — **C164**, what holds: if no two threads are in a logging call at the same time, be it on different loggers, every line gets the time that its own call read from the clock. [Verif/Props/LogThreads.lean:289; CQP]
* `C164_fields_partial` — **C164**, what holds for loggers in several threads: a stamp always has its six fields, and each of them is that of a time which some thread has read from the clock for a line of its own. [Verif/Props/LogThreads.lean:415; CQP]
* `C164_refuted` — **C164**, refuted: while a thread copies its time stamp, another thread that logs to another file may overwrite it. From whatever two times the clocks of the two calls give, the first line gets any number of fields of the one and the rest of the other. [Verif/Props/LogThreads.lean:490; QP]

## C165 What a task captured is released once it has run — partial

When a task has returned, the pool destroys what the task had captured, once and soon; it never destroys it earlier, and the destructor may call the pool.

Over: all interleavings of any number of threads and workers, all tasks, all destructors that call the pool or not

* `C165_accounted_partial` — C165, what holds, whatever the destructors do: each accepted task is in exactly one place: what it captured has been destroyed, once, or a worker keeps it, or it is queued. While a task is executed its worker keeps it. A worker that has returned keeps nothing. Missing: that nothing is kept when nothing is executed, see the refutations. [Verif/Props/PoolHeld.lean:13; QP]
* `C165_after_stop_partial` — C165, what holds, for a pool that one thread initialises, stops and never resizes: when `Stop` returns, everything that the tasks taken from the queue had captured has been destroyed, exactly once, and the other accepted tasks are in the queue. [Verif/Props/PoolHeld.lean:40; QP]
* `C165_destroyed_partial` — C165, what holds however the pool was used: once the pool has been destroyed, what each accepted task captured has been destroyed, exactly once. [Verif/Props/PoolHeld.lean:81; QP]
* `C165_same_partial` — C165: tasks whose captured objects do not call the pool when they are destroyed change nothing: the pool does exactly what the other theorems about it say. [Verif/Props/PoolHeld.lean:119; P]
* `C165_kept_refuted` — C165 is false: when a task has returned and the pool has nothing to do, the worker still keeps what the task captured, and keeps it until somebody calls the pool again. [Verif/Props/PoolHeld.lean:216; CQP]
* `C165_destructor_refuted` — C165 is false, and worse: if the destructor of what a task captured calls `AddTask` or `GetBusyAndTaskNum`, the worker never comes out of taking the next task. It holds the mutex: no task is ever taken again, and no `AddTask` or `GetBusyAndTaskNum` of any thread succeeds, whatever happens. [Verif/Props/PoolHeld.lean:329; CQP]

## C166 A handler may register further handlers — partial

A handler may call RegisterHandler while it serves a request: the request is served by the handlers that were registered before it, and the new ones serve the requests after it.

Over: all routing tables, handlers, paths and registrations

* `C166_exact_partial` — C166, what holds: if only handlers for exact paths register others, and only for paths without handlers, a request is served as if everything that was registered had been registered after it: the routing table does not change under the handlers, nothing undefined happens, and the table afterwards is the one that the registrations give in their order. Missing: registrations by handlers for prefixes, and for paths that have handlers, see the refutations. [Verif/Props/Reentrant.lean:350; CQP]
* `C166_none_partial` — C166, handlers that register nothing: the server with pointers serves every request as the model of the other properties says, and its routing table stays as it is. [Verif/Props/Reentrant.lean:475; CQP]
* `C166_same_path_refuted` — C166 fails: a handler that registers another handler for the path it serves, and does not stop the server, goes on in a loop over a vector that has grown: undefined behaviour. [Verif/Props/Reentrant.lean:500; P]
* `C166_middleware_refuted` — C166 fails: a handler for the prefix `/abc` that registers a handler for `/other` splits the node the search stands at, and the search does not find the way on: the handler of `/abc/x` does not see the request (the sum is 1), although it was registered before, and sees it (1 + 3) if the handler for the prefix registers nothing, or registers for a path that does not split the node. If it registers for `/ab`, the lookup finds the vector of `/abc`, which then grows under the loop: undefined behaviour. [Verif/Props/Reentrant.lean:511; P]

## C167 The settings of an event loop hold for its next wait — partial

After set_max_event_num(n) each wait of the event loop reports up to n events, after set_wait_timeout(t) it lasts t milliseconds at most (for ever if t is negative), whenever and however often they are called.

Over: all histories of settings and waits, all numbers, all three platforms

* `C167_settings_partial` — C167, what holds on Linux and macOS: each wait of the event loop asks for as many events as were set last, and lasts as many milliseconds as were set last (for ever if that is negative). On macOS the timeout must not be 0. Missing: a timeout of 0 on macOS, both settings on Windows, and a number of events that is not positive: see the refutations. [Verif/Props/MuxSettings.lean:101; QP]
* `C167_zero_refuted` — C167 fails: with a timeout of 0 the loop on macOS waits for ever, where the one on Linux does not wait. [Verif/Props/MuxSettings.lean:112; QP]
* `C167_windows_refuted` — C167 fails: on Windows no wait is bounded, whatever was set. [Verif/Props/MuxSettings.lean:120; P]
* `C167_not_positive_refuted` — C167 fails: a number of events that is not positive is accepted, and the next wait is undefined (Linux and macOS). [Verif/Props/MuxSettings.lean:135; P]
* `C167_stack_partial` — C167, what holds on Linux and macOS if the events of each wait (12 bytes each on Linux, 32 on macOS) fit on the stack: the same as in `C167_settings_partial`. Missing: settings that do not fit, see `C167_stack_refuted`. [Verif/Props/MuxSettings.lean:166; QP]
* `C167_stack_refuted` — C167 fails: a number of events that does not fit on the stack is accepted, and the next wait is undefined; there is such a number for every stack of up to 24 gigabytes. [Verif/Props/MuxSettings.lean:185; QP]

## C168 A bound on the events of a wait starves no socket — proved

With set_max_event_num(n), n positive, a socket that is ready while i others are before it is reported by one of the next i / n + 1 waits, even if the others are always ready again.

Over: all numbers of ready sockets, all bounds, all later events

* `C168_no_starvation` — C168: a socket that is ready, with `i` others before it, is reported by one of the next `i / n + 1` waits, if each wait may report `n` events or more and nobody overtakes it in the kernel's list: however often the sockets before it are ready again. [Verif/Props/MuxSettings.lean:217; QP]
* `C168_sharp` — C168, the bound is sharp: with `n` events per wait the waits before number `i / n` do not report it, if all the sockets before it stay ready. [Verif/Props/MuxSettings.lean:251; QP]

## C169 The last helper that was called decides the response — partial

If several handlers of a request call helpers of the response (NotFound, Redirect, Success, Json, Text, ...), the response that is sent is the one of the last call, as if the others had not been made.

Over: all sequences of calls of the helpers, of Clear and of assignments to header fields

* `C169_exact_partial` — C169, exactly what a response is after any calls: its status is the one the last call asked for, its body the last that was given, and each header field has the last value that was given for it, where `Clear` takes everything back. Missing: that the last call alone decides the body and the other fields, which is false, see the refutations. [Verif/Props/RespCalls.lean:118; CQP]
* `C169_last_decides_partial` — C169, when the last call alone decides: whatever helpers were called before, with `Redirect` and header fields only before the last `Clear`, a call that gives a status, a type and a body leaves the response, and so the text that is sent, as if it had been the only call. Missing: calls that give no body, and fields that earlier calls left, see the refutations. [Verif/Props/RespCalls.lean:159; CQP]
* `C169_location_refuted` — C169 fails: a handler that answers `Success` after another one redirected sends the address of the redirection along. [Verif/Props/RespCalls.lean:224; CQP]
* `C169_body_refuted` — C169 fails: `Success(type)` with an empty body after `NotFound` sends the page of the error with status 200, although the same call alone sends an empty body. [Verif/Props/RespCalls.lean:235; CQP]

## C170 Copies of a socket reach one connection and close it once — partial

Socket objects are copied freely: the event callback gets a copy, Accept returns one by value. A call through any socket variable or copy of it makes its system calls on the connection that variable was made for and on no other, even when descriptor numbers are used again, and every descriptor the variables were given is closed exactly once.

Over: All numbers of variables, all histories of member calls, copies, accepts and descriptors opened elsewhere in the process, and all answers of the system.

* `C170_reaches_partial` — C170, exactly: after whatever calls, assignments and copies, a system call made through a socket reaches the connection the socket was made for if and only if no `Close` (through whichever copy) has reached that connection yet; a socket that was given none reaches none. [Verif/Props/SockCopies.lean:377; CQP]
* `C170_closed_partial` — C170: each connection is closed at most once, and is open as long as it was not closed; nothing but `Close` closes it, not the end of a variable or an assignment to it either. [Verif/Props/SockCopies.lean:394; CQP]
* `C170_copies_refuted` — C170 is false: a socket is copied (as for a callback), the copy is closed, the number goes to the next connection; then `Close` on the first socket succeeds and closes that connection, and a write through its own socket reaches nothing. [Verif/Props/SockCopies.lean:401; P]
* `C170_init_again_refuted` — C170 is false: `Init` on a socket that is open loses the first descriptor: it is open, and no variable knows it. [Verif/Props/SockCopies.lean:416; P]

## C171 Socket timeouts mean what was asked on every system — partial

After SetReadTimeout(sec, usec) a read that gets no data returns an error after sec seconds and usec microseconds, after SetWriteTimeout a write does, (0, 0) waits for ever, and the other direction is left alone, on Linux, macOS and Windows alike.

Over: All systems, all values of the two arguments, and all histories of the two calls.

* `C171_posix_partial` — C171, on Linux and macOS: after whatever calls, `SetReadTimeout` (`SetWriteTimeout`) succeeds exactly if the microseconds are less than a million; then reads (writes) wait as long as it says, zero meaning for ever; otherwise nothing changes. The other waiting time is never changed. [Verif/Props/SockTimeout.lean:55; CQP]
* `C171_windows_partial` — C171, on Windows: the seconds are taken for milliseconds and the microseconds for nothing, and the call says that it succeeded. [Verif/Props/SockTimeout.lean:65; QP]
* `C171_windows_refuted` — C171 is false: on Windows no timeout but zero is what was asked for. [Verif/Props/SockTimeout.lean:75; QP]
* `C171_negative_refuted` — C171 is false on Linux for negative seconds: the call succeeds and reads do not wait at all (macOS refuses). [Verif/Props/SockTimeout.lean:89; P]

## C172 Values of several types in one trie — partial

In a trie that holds values of several types, Get<T>(key) returns the value the last Set stored there if that value has type T, throws std::bad_any_cast if it has another type, and returns null if nothing is stored under the key; Search<T> calls its callback with the values stored under the prefixes of the word, shortest first, and throws at the first one of another type.

Over: All histories of Set and Reset with values of any types and ASCII keys, all ASCII keys and words, all types asked for and callbacks.

* `C172_get_partial` — C172, `Get<T>` of a key that was stored: the pointer stored last if it was stored with the type `T`, the exception if it was stored with another. [Verif/Props/TrieAny.lean:14; QP]
* `C172_absent_partial` — C172, `Get<T>` of a key that was not stored and that no stored key extends: the null pointer. [Verif/Props/TrieAny.lean:27; QP]
* `C172_absent_refuted` — C172 is false: with one value, of type 1, under "hello", `Get` with another type of the key "hel", under which nothing was stored, throws. [Verif/Props/TrieAny.lean:38; P]
* `C172_search_partial` — C172, `Search<T>`: the callback gets the pointers stored under the prefixes of the key, shortest first, until it asks to stop; at the first one that was stored with another type the call throws, and the callback is not called any more. [Verif/Props/TrieAny.lean:66; CQP]

## C173 The log shows when a connection came and when it went — partial

Each connection that an HttpServer takes in has exactly one message in the log that says it was accepted, the first about it, and exactly one that says it was left, the last about it; both name the peer's address and the descriptor, whatever the client sends in between.

Over: All servers, connections, requests, answers of the system and ways in which a connection ends, in the I/O multiplexing and the multi-thread mode.

* `C173_accept_partial` — **C173** (the beginning). Whatever happens on a connection whose peer is known when it is accepted, in the I/O multiplexing mode: the first message about it names its peer and its descriptor, and no other message says that it was accepted (whatever the client sends: the messages about its requests begin otherwise). [Verif/Props/ConnLog.lean:199; CQP]
* `C173_leave_partial` — **C173** (the end). If the server answers all the requests of a connection and then its peer leaves, the log of the connection ends with a message that names the same peer, provided that the system still knows it, and no other message says that it was left. [Verif/Props/ConnLog.lean:222; CQP]
* `C173_task_partial` — **C173** (the multi-thread mode). Each connection that was handed to a worker has exactly one message that says that it was left, the last one, whatever the client sent; it names the peer if the system still knows it. A connection whose peer is known in the beginning has exactly one message that says that it was accepted, the first one. [Verif/Props/ConnLog.lean:270; CQP]
* `C173_messages_partial` — **C173** (all of a connection's messages, the multi-thread mode): the one about its beginning, those about its requests one after the other, the one about its end. [Verif/Props/ConnLog.lean:335; QP]
* `C173_multiplexed_partial` — **C173** (all of a connection's messages, the I/O multiplexing mode, when its requests are answered and then its peer leaves). [Verif/Props/ConnLog.lean:350; QP]
* `C173_unknown_refuted` — **C173 is false** for a connection whose peer the system does not know when it is accepted (it was reset at once): in the I/O multiplexing mode the only message about it is an error with the system's text; in the multi-thread mode a message follows that says it was left, although none said that it came. [Verif/Props/ConnLog.lean:392; QP]
* `C173_closed_refuted` — **C173 is false** for a connection that the server itself closes in the I/O multiplexing mode (here after a request that it cannot read): no message says that it was left. [Verif/Props/ConnLog.lean:409; CQP]
* `C173_reset_refuted` — **C173 is false** after a reset: the system does not know the peer any more, and the message says "leave from 0.0.0.0:0" of every such connection. [Verif/Props/ConnLog.lean:448; P]
* `C173_error_refuted` — **C173 is false** for a connection that fails: the message about it is the error text of the server, which says nothing about the connection (and is empty if nothing failed before). [Verif/Props/ConnLog.lean:459; QP]

## C174 A signal during a read changes nothing — partial

When the program handles a signal while a request or a response is being read, the request is served, or the response delivered, as if the signal had not come.

Over: All requests and responses, and all moments at which signals come, with handlers that restart interrupted calls and handlers that do not.

* `C174_served_partial` — C174, what holds: when every signal that comes with the request's header restarts interrupted calls, and none comes between the first and the last byte of its body, the request is served as if no signal had come. Missing: signals whose handlers do not restart calls, and signals while the body is read (both refuted). [Verif/Props/Signals.lean:364; CQP]
* `C174_body_refuted` — C174 is false: a signal that comes while the body is read, even one whose handler restarts interrupted calls, makes the server call the handler with the part of the body that had come; the rest of the body is left to be read as the next request. [Verif/Props/Signals.lean:401; CQP]
* `C174_interrupted_refuted` — C174 is false: a signal whose handler does not restart interrupted calls, at any moment before the header is complete, makes the server close the connection without an answer (or die of the exception of C34), whatever would have come. [Verif/Props/Signals.lean:483; QP]
* `C174_between_refuted` — C174 is false: a signal whose handler does not restart interrupted calls, between the header and the first byte of the body, makes the server close the connection without an answer; no handler is called. [Verif/Props/Signals.lean:503; CQP]
* `C174_bodiless_partial` — C174, what holds of requests without a body: whatever signals come, the server does what it would have done without them, or it closes the connection and has called no handler and written nothing. Missing: requests with a body, and the second case (both refuted). [Verif/Props/Signals.lean:534; QP]
* `C174_client` — C174 for the client: whatever signals come, when `Send` returns success the response is what it would have been without them; a signal can only make it fail. [Verif/Props/Signals.lean:575; CQP]

## C175 A call returns 0 on success and -1 on failure — partial

Every function of the API whose documentation says that it returns 0 on success and -1 on failure (parsing and building messages, files, addresses, sockets, servers, clients, TLS contexts) returns one of these two values.

Over: all objects, texts, file systems, system answers and histories of events

* `C175_text_refuted` — **C175 is false** of everything that reads or writes the text of a message, and of `HttpClient::Send`: whatever the object and the text are, they return 0 or -2, and never the -1 that the documentation names; a program that compares with -1 takes every failure for a success. [Verif/Props/Codes.lean:145; QP]
* `C175_file_refuted` — **C175 is false** of the functions on files: a file that is not there, or that may not be opened, gives -2. [Verif/Props/Codes.lean:163; P]
* `C175_misuse_refuted` — **C175 is false** of calls at the wrong time: the loop of a server that was not initialised and `Run`, `WakeUp` of a running server, the second initialisation of a context and the TLS server in the mixed mode. [Verif/Props/Codes.lean:205; QP]
* `C175_documented_partial` — **C175** (the calls that keep to the documentation): `Init` of both servers whatever the system answers; `Init` of an address by its text or its name; `File::Create` when it does not throw; `Init`, `Listen`, `Bind`, `Connect`, `Close`, `GetAddr` and the options of a socket and `HttpClient::Init`, when the system answers 0 or -1 as it documents. [Verif/Props/Codes.lean:295; QP]
* `C175_success_partial` — **C175** (what success means): a call on a socket reports success exactly if the object is in use where that is asked, and every system call it needs has succeeded. [Verif/Props/Codes.lean:364; QP]
* `C175_codes_partial` — **C175** (what does hold everywhere): success is 0 and every failure is one of the three negative codes, so that "less than 0" is the test that never errs. [Verif/Props/Codes.lean:477; QP]

## C176 What a running server says about a failure is about that failure — partial

A callback that is called with an error event, and a caller whose EventLoop, AddSoc, Stop or WakeUp returned an error, finds in err_msg() the reason of this failure, not nothing and not the reason of an earlier one.

Over: all servers, sequences of waits and reports, system answers and texts, actions of the callback and previous messages

* `C176_callbacks_partial` — **C176** (which callbacks the messages belong to): the loop with messages makes the callbacks of the loop without, in the same order, and ends as it does. [Verif/Props/RunErr.lean:230; QP]
* `C176_accept_partial` — **C176** (connections that cannot be accepted): if the acceptance of connections is all that fails while the loop runs, then every callback with an error event finds the message of the failure that it is called for. [Verif/Props/RunErr.lean:374; QP]
* `C176_loop_partial` — **C176** (a loop that fails): when the loop returns an error, the message is the system's text for the wait that failed. [Verif/Props/RunErr.lean:445; P]
* `C176_no_mux_partial` — **C176** (a server that listens and has nothing to wait with): `EventLoop` says so and does not begin, except in the mode with one thread per connection, which needs nothing; a server that has both leaves the message as it was. [Verif/Props/RunErr.lean:492; P]
* `C176_calls_partial` — **C176** (calls at the wrong time, and `WakeUp`): a loop that does not begin, and a `WakeUp` that fails, leave the reason in the message. [Verif/Props/RunErr.lean:506; P]
* `C176_connection_refuted` — **C176 is false** for a connection that fails: whatever has happened to it, the callback finds the message that was there before. [Verif/Props/RunErr.lean:550; QP]
* `C176_watch_refuted` — **C176 is false** for a connection that was accepted but cannot be watched (the limit on watched descriptors is reached): the message is `[syserr]:` and nothing behind it. [Verif/Props/RunErr.lean:574; QP]
* `C176_add_refuted` — **C176 is false** of `AddSoc`: when the system refuses, the call fails and the message is the one that was there before. [Verif/Props/RunErr.lean:606; P]

## C177 Clients that stay connected keep neither other clients nor Run waiting — partial

A client that connects to a server in several threads is served although other clients are connected and send nothing, and after Stop the call of Run returns although clients are still connected.

Over: all numbers of workers, with and without TLS, all schedules of the loop, the workers and the thread that calls Stop, all times at which clients connect, send and leave

* `C177_waits_refuted` — **C177 is false** in the multi-thread mode, for every number of workers: when as many clients as there are workers are connected and idle, a client that connects then waits for as long as they stay, whatever anybody else does. [Verif/Props/Idle.lean:264; CQP]
* `C177_run_refuted` — **C177 is false** for `Run`, in the multi-thread mode: one client is connected and idle, `Stop` was called and has returned, and the listening socket is closed. `Run` does not return for as long as this client stays. [Verif/Props/Idle.lean:332; CQP]
* `C177_order_partial` — **C177** (what holds): the connections (or, in the mixed mode, the reports) are begun in the order in which they were accepted, and never more of them at a time than there are workers. [Verif/Props/Idle.lean:543; CQP]
* `C177_free_partial` — **C177** (what holds): whenever fewer tasks are at work than there are workers and the server was not stopped, a connection that waits can be begun at once. [Verif/Props/Idle.lean:555; CQP]
* `C177_leaves_partial` — **C177** (what holds): when one of the idle clients leaves, the connection that has waited longest is begun, by steps of the task of the client that left and of its worker alone. [Verif/Props/Idle.lean:663; CQP]
* `C177_mixed_partial` — **C177** (what holds in the mixed mode): a client that sends nothing costs no worker: there are tasks only for connections that were reported as readable. [Verif/Props/Idle.lean:732; CQP]
* `C177_returns_partial` — **C177** (what holds of `Run`): once a call of `Stop` has returned and no worker is busy, `Run` needs nobody else to return: neither a client, a worker nor another call of `Stop`. (It may wait in `accept` when the connection of `Stop` to itself failed: see C25.) [Verif/Props/Idle.lean:942; CQP]

## C178 A call may be given a text of the object itself — partial

A call that takes a text by reference (Parse, Build, POST, Redirect, Text, BadRequest, ...) does the same with a text of the object itself, as body(), header()[key] and route()[key] hand it out, as with a copy of that text.

Over: all requests, responses, headers and routes, all of their texts, all orders of the hash maps

* `C178_parse_partial` — **C178** (what holds of `Parse`): a response can be parsed from any text it holds, a header from the value of any of its entries, and a request from any of its parameters. [Verif/Props/Alias.lean:23; QP]
* `C178_request_refuted` — **C178 is false** for `HttpReq::Parse(req.body())`: the request line is cut from the body that was just stored. Every request without a body that could be parsed from a copy is rejected. [Verif/Props/Alias.lean:31; QP]
* `C178_request_header_partial` — **C178** (what holds of `HttpReq::Parse` and a header): a request can be parsed from one of its own header values if the text does not name that header again with another value. [Verif/Props/Alias.lean:101; QP]
* `C178_request_header_refuted` — **C178 is false** for `HttpReq::Parse(req.header()[k])`: if the text names the header `k` itself, the text is replaced while it is parsed, and the call throws. [Verif/Props/Alias.lean:157; QP]
* `C178_route_partial` — **C178** (what holds of a route): a route can be parsed from one of its own parameters if the text does not change that parameter. [Verif/Props/Alias.lean:168; QP]
* `C178_route_refuted` — **C178 is false** for `HttpRoute::Parse(route[k])`: a text that names the parameter `k` itself is replaced before its path is cut off. [Verif/Props/Alias.lean:211; QP]
* `C178_build_refuted` — **C178 is false** for `HttpReq::Build(req.body())`: the body is overwritten with the request line and the headers, and these are appended to themselves. The result is the text that a copy would have given only if the body was this head already. [Verif/Props/Alias.lean:219; QP]
* `C178_build_partial` — **C178** (what holds of `HttpReq::Build`): it can put its text into one of the parameters of the request. [Verif/Props/Alias.lean:231; CQP]
* `C178_response_build_refuted` — **C178 is false** for `HttpResp::Build(resp.body())`: the body is cleared, what is announced is the length of the status line, and the text is twice the status line with the headers. The body is lost. [Verif/Props/Alias.lean:238; QP]
* `C178_helpers_partial` — **C178** (what holds of `POST` and the helpers of a response): they can be given any text of the object itself, except for the body or the content type in `Redirect` and the content type in `BadRequest` and `InternalServerError`. [Verif/Props/Alias.lean:255; CQP]
* `C178_helpers_refuted` — **C178 is false** for these: a redirect to the text of the body goes to the HTML page that `Redirect` itself stores, and the body of an error that shows the content type shows `text/html`. [Verif/Props/Alias.lean:294; CQP]

## C179 A server tells of every firing of a timer that it watches, once — partial

When a timer was given to a server with AddSoc, the server's callback is called for its firings: never without a firing that was not yet read, no firing is lost, and reading the number of firings does not wait.

Over: all periods, all times at which waits return and callbacks read, both trigger types, all numbers of rounds

* `C179_firings_partial` — **C179** (what holds): in the mode without threads, level- or edge-triggered, with a callback that reads the timer as a `TimerSocket`, for all times of the waits and the reads: the numbers that the callbacks get add up to at least the firings until each wait and to no more than the firings until the last read; every call gets at least one firing, and no read waits (it ends at the time it began). [Verif/Props/TimerWatch.lean:101; CQP]
* `C179_calls_partial` — **C179** (what holds): such a callback is not called more often than the timer fires. [Verif/Props/TimerWatch.lean:126; CQP]
* `C179_level_refuted` — **C179 is false** for a callback that reads from the `Socket` that it is given, as that of the README's server does: level-triggered (the default), after one firing it is called in every round, as often as the loop goes round. [Verif/Props/TimerWatch.lean:134; CQP]
* `C179_edge_refuted` — **C179 is false** for that callback edge-triggered: it is called at most once, however often the timer fires. [Verif/Props/TimerWatch.lean:157; CQP]
* `C179_mixed_refuted` — **C179 is false** in the mixed mode (level-triggered): before the task of the first report has read, the loop reports the timer `n` times, and `n` tasks are queued for one firing. Their reads end only with the following firings: the last of them keeps its worker for `n - 1` periods. [Verif/Props/TimerWatch.lean:186; CQP]

## C180 A server that reads in pieces gets all that was sent — partial

A TcpServer callback that calls Read(buf, len) at every read event gets, piece by piece, exactly the bytes that the client sent, in order, for every positive len.

Over: all texts, all cuts into sends and pieces, all positive lengths, all orders of sends and rounds, both trigger types

* `C180_order_partial` — **C180** (what holds): as long as the client stays, whatever the trigger, the lengths of the pieces and the order of events: the results of the reads add up to the number of bytes that were read, in order, and the texts are those bytes if no zero byte is among them; nothing is lost, doubled or moved. (`rest` is what was not read yet.) [Verif/Props/Pieces.lean:103; QP]
* `C180_level_partial` — **C180** (what holds), level-triggered (the default): however short the pieces, after as many rounds as bytes are waiting everything has been read. [Verif/Props/Pieces.lean:142; QP]
* `C180_edge_partial` — **C180** (what holds), edge-triggered with a callback that reads until nothing is left: after every round everything that was sent until then has been read. [Verif/Props/Pieces.lean:202; QP]
* `C180_edge_refuted` — **C180 is false** edge-triggered for the callback of the README, which reads once: of a text that is longer than `len` it gets a piece of at most `len` bytes, however often the loop goes round; the rest waits until the client sends more. [Verif/Props/Pieces.lean:229; QP]
* `C180_nul_refuted` — **C180 is false** for a text with a zero byte: the piece ends there, and what follows it in the piece is never seen. [Verif/Props/Pieces.lean:248; QP]
* `C180_zero_refuted` — **C180 is false** for pieces of no bytes (the README's `msg.size()` of an empty `msg`): nothing is ever read, and level-triggered the callback is called in every round. [Verif/Props/Pieces.lean:282; P]

## C181 A static handler logs what it did, once — proved

Each call of a handler made by StaticDir or StaticFile that returns gives the logger exactly one message, which names the file or path: Info exactly if the response is the file, a warning exactly if there is no such file or the path is refused, an error exactly if the file cannot be opened. A call that throws logs nothing, and logging does not change the response.

Over: all file systems, mount points, directories, files, requests and contexts

* `C181_same` — **C181**: logging changes nothing: the handlers with their messages do what the handlers of the other theorems do. [Verif/Props/StaticLog.lean:14; QP]
* `C181_file` — **C181** for `StaticFile`: one message for each call that returns, and none for a call that throws. It is an Info message exactly when the response is the file (200 and its content), a warning exactly when there is no file (404), an error exactly when the file cannot be opened (404); it names the file. [Verif/Props/StaticLog.lean:75; CQP]
* `C181_dir` — **C181** for `StaticDir`, when the rest of the path after the first occurrence of the mount point has no "..": one message for each call that returns, none for a call that throws; Info exactly when the response is the file, a warning when there is no file (the response is then left to the handlers that follow), an error when the file cannot be opened (404). It names the file. [Verif/Props/StaticLog.lean:103; CQP]
* `C181_refused` — **C181** for `StaticDir`, when the path does not lead into the directory: one warning and 404; the file system is not asked. [Verif/Props/StaticLog.lean:139; CQP]

## C182 A file that other programs change meanwhile is as it was at one time — partial

While Create, Remove or a static handler works, other programs may change the file system. The call still has an outcome that it could have had if the file system had stood still at one of the times during the call: a static handler answers with the file, or that there is none, and does not throw; Create does not empty a file; Remove does not remove a directory and reports success if the file is gone.

Over: all file systems at each of the system calls, all paths, everything other programs do between two system calls

* `C182_same_partial` — **C182** (what holds): when nothing changes the functions of this model are those of the other models. [Verif/Props/Meanwhile.lean:18; QP]
* `C182_exist_partial` — **C182** (what holds) for `File::Exist` as the handlers call it: it says yes only if there was something at its first system call and a regular file at its second, and then always; and if it throws, one of the two calls failed. [Verif/Props/Meanwhile.lean:58; QP]
* `C182_file_partial` — **C182** (what holds) for `StaticFile`: whatever others do, the answer is the one for the file system as it was at one of the three times at which it was asked, or 404 because the file was gone when it was to be opened; unless there was something that is not a regular file then. [Verif/Props/Meanwhile.lean:68; QP]
* `C182_dir_partial` — **C182** (what holds) for `StaticDir`, for a path that leads to `dir/rest`. [Verif/Props/Meanwhile.lean:125; CQP]
* `C182_static_refuted` — **C182 is false** for `StaticFile`: a file that is replaced by a directory between `Exist` and `Read` makes the handler throw (which ends the program, C133), although it answers both when there is the file and when there is the directory. [Verif/Props/Meanwhile.lean:192; CQP]
* `C182_create_partial` — **C182** (what holds) for `Create`, if others leave this name alone (whatever they do elsewhere): when it returns success a file that was there still has its content, and a file that was not is there and empty. [Verif/Props/Meanwhile.lean:223; QP]
* `C182_create_refuted` — **C182 is false** for `Create`: what another program writes into the file between the check and the open is lost, and `Create` reports success. So two programs that begin to log to the same new file can lose the first lines of one of them. [Verif/Props/Meanwhile.lean:274; QP]
* `C182_remove_partial` — **C182** (what holds) for `Remove`: it removes nothing but what is under this name. [Verif/Props/Meanwhile.lean:289; P]
* `C182_remove_refuted` — **C182 is false** for `Remove`: a directory that takes the file's place (and is empty) is removed, with success, although `Remove` leaves directories alone; and when another program has removed the file already `Remove` reports an error. [Verif/Props/Meanwhile.lean:316; P]

## C183 A symbolic link stands for what it points to — partial

Every function of File, given a path with symbolic links in it, does what it does for the place the path leads to, and Remove removes the link itself and nothing else; a function that cannot reach the place reports it by its result. The static handlers serve what a link leads to.

Over: all trees of files, directories, links and closed directories, all paths, all data and answers of the system

* `C183_same_partial` — **C183** (what holds): if two paths lead to the same place, every function but `Remove` does the same for both. So a link stands for what it points to. [Verif/Props/Links.lean:152; QP]
* `C183_plain_partial` — **C183** (what holds): in a tree without links and closed directories all functions are those of `Model/File`, for which C97 to C101 and C143 are proved. [Verif/Props/Links.lean:487; QP]
* `C183_remove_partial` — **C183** (what holds): `Remove` of a path that leads to a file removes the last name of the path in the directory where the others lead, and nothing else; if this name is a link, the file it leads to keeps its content. [Verif/Props/Links.lean:609; QP]
* `C183_dangling_refuted` — **C183 is false** for links to names that are free: `Exist` says no and `Remove` reports success, but the link is still there; after `Create` the file is somewhere else. [Verif/Props/Links.lean:638; QP]
* `C183_refused_refuted` — **C183 is false** for names that lead through a closed directory or in a circle: `Exist`, `IsFile`, `IsDir`, `CanWrite`, `Create` and `Remove` throw, and so does the start of a `FileLogger`; `Read`, `Write` and `Append` report an error, and `LineCount` is 0. [Verif/Props/Links.lean:664; QP]
* `C183_circle_refuted` — **C183**: a link that leads to itself, and a name in a closed directory, are such names, in every tree. [Verif/Props/Links.lean:683; QP]
* `C183_create_partial` — **C183** (what holds) for `Create` below a link to a directory: the missing directory is made where the link leads, and the file in it; nothing else changes. [Verif/Props/Links.lean:724; QP]
* `C183_static_partial` — **C183** (what holds) for `StaticFile`: it serves what the link leads to. [Verif/Props/Links.lean:762; CQP]

## C184 Requests leave nothing behind — proved

However long a server runs and whatever its clients send, the registry of content types that all servers of the program share keeps every entry it has, gets at most one more (an empty one for the empty suffix), and static files with a suffix are answered as on the first day, as long as the program's own handlers leave the registry alone.

Over: all servers that registering calls make, all sequences of reports on any number of connections, all file systems meanwhile, all bytes received

* `C184_registry` — **C184**: whatever clients have asked, for however long, the registry of content types has every entry it had, and at most one more: an empty one for the empty suffix. [Verif/Props/Traces.lean:411; CQP]
* `C184_same_answer` — **C184**: and so a static file with a suffix, in whichever of the two ways it is mounted, is answered as on the first day. [Verif/Props/Traces.lean:529; CQP]

## C185 A pool that is refused threads works with those it has — partial

When the system has no more threads, Init and the constructor of ThreadPool let the caller know; the pool goes on with the threads it got (no accepted task is lost or run twice, a free worker takes the next task, Stop and the destructor wait for them), it can be given the missing threads later, and it accepts no task that will never be run.

Over: all numbers asked for and refused, all calls by any number of threads, all schedules

* `C185_once_partial` — **C185**, however many threads are refused, to however many calls: what was accepted is queued, in the hands of one worker or finished, and nothing is run twice. [Verif/Props/ThreadLimit.lean:85; QP]
* `C185_progress_partial` — **C185**: as long as there is a worker without a task, the first task of the queue can be taken, by steps of the pool and the calls already begun alone. [Verif/Props/ThreadLimit.lean:93; CQP]
* `C185_stop_partial` — **C185**, with one controlling thread: `Stop` waits for the threads that were started; when it returns no worker has a task, and the accepted tasks are the finished ones and those still in the queue. [Verif/Props/ThreadLimit.lean:137; QP]
* `C185_destroy_partial` — **C185**: and a pool that was refused threads by its one `Init` can be stopped and destroyed: the program is not terminated as long as no task throws. [Verif/Props/ThreadLimit.lean:171; QP]
* `C185_none_refuted` — C185 is false of an `Init` that got no thread at all: it throws, but the pool takes itself for initialised. `AddTask` accepts a task and returns 0, and whatever any thread does afterwards short of starting threads, the task is never run. [Verif/Props/ThreadLimit.lean:329; QP]
* `C185_again_refuted` — C185 is false of a second `Init`, after the first got some of its threads: it terminates the program. [Verif/Props/ThreadLimit.lean:347; QP]
* `C185_resize_refuted` — C185 is false of `Resize` to the number that was asked for: it returns at once, and there are as few threads as before. [Verif/Props/ThreadLimit.lean:356; QP]
* `C185_constructor_refuted` — C185 is false of the constructor with a number: a refusal after the first thread terminates the program, whatever the threads already started have done meanwhile; the caller has nothing to catch. [Verif/Props/ThreadLimit.lean:394; QP]
* `C185_constructor_partial` — C185, the constructor with a number, when the first thread is refused: the caller gets the exception, the members are destroyed and the program goes on. Missing: later refusals, see `C185_constructor_refuted`. [Verif/Props/ThreadLimit.lean:413; QP]

## C186 The times in a log file sort as the clock — partial

Of two lines that a FileLogger writes at different seconds, the one logged later carries the time that sorts later as text; equal times mean the same second; and the times in the file never go back.

Over: all times of a year of four digits, all time zones, all messages and levels, all histories of a logger and schedules of its thread

* `C186_order_partial` — **C186**, the order, if the clocks on the wall are not set back between the two calls (`z t₁ ≤ z t₂`; so always in a zone without summer time): of two calls at different seconds the earlier one gets the time that sorts first. (Missing: a clock that is set back, see `C186_back_refuted`; years with more than four digits, see `C186_year_refuted`.) [Verif/Props/LogClock.lean:161; CQP]
* `C186_second_partial` — **C186**, the second: in a zone whose clocks are never changed, the text tells the second of the call, in every year of four digits. (Missing: the hour that is shown twice when the clocks are set back, see `C186_twice_refuted`.) [Verif/Props/LogClock.lean:172; CQP]
* `C186_file_partial` — **C186**, the log file: if the clock does not go back and the zone's clocks are never changed, then at every moment until the first `Stop` returns, what the logger has added to the file is lines with times that never go back. (Every line is that of a call `(level, time, text)`; no file operation fails. Missing: the lines that `Stop` itself writes, see `C56_order_refuted`.) [Verif/Props/LogClock.lean:194; CQP]
* `C186_back_refuted` — **C186**, refuted: whenever the clocks on the wall are set back by more than the time between two calls (the end of summer time, in whatever year of four digits), the later line carries the time that sorts first. [Verif/Props/LogClock.lean:225; CQP]
* `C186_twice_refuted` — **C186**, refuted: the hour before the clocks are set back by an hour is shown twice, each second of it by two seconds of the clock. [Verif/Props/LogClock.lean:231; QP]
* `C186_year_refuted` — **C186**, refuted: from the year 10000 on, whatever the zone: every line of the years 10000 to 19999 carries a time that sorts before that of every line of the years 2000 to 9999. [Verif/Props/LogClock.lean:258; QP]

## C187 An Init of a FileLogger that fails leaves the logger as it was — partial

If Init fails, be it because of its file or for lack of memory, the logger goes on as before: one that was never initialised ignores messages and can be initialised later, a running one keeps writing to its file, and Stop and the destructor return.

Over: all files and what is at their names, all histories of failed calls, all messages, all schedules of the logger's thread, all points at which memory runs out

* `C187_first_partial` — **C187**, before the first successful `Init`: calls of `Init` that failed do no harm, whatever their files. When `Init p` then succeeds and `Stop` or the destructor has returned, the file `p` holds what it held, followed by every line logged, each once, and no other file has changed. (`before`: only failed calls of `Init`, and messages ignored; `log`: neither `Init` nor a write that the system cut short. Missing: an `Init` that fails while the logger runs, see `C187_running_refuted`.) [Verif/Props/LogInit.lean:186; CQP]
* `C187_running_refuted` — **C187**, refuted: whatever the two files, if a running logger is told to use a file that cannot be written, `Init` says so (-1), and yet the logger has taken over the name: the line logged before, still in its buffer, never reaches the file of the logger, nor any other. [Verif/Props/LogInit.lean:381; CQP]
* `C187_memory_refuted` — **C187**, refuted: if `Init` runs out of memory, or is given a negative buffer size (`made = 1`), before the last of its buffers has been made, `Stop`, and so the destructor, follows a null pointer. [Verif/Props/LogInit.lean:459; QP]
* `C187_memory_partial` — **C187**, what holds: if only the size of the last buffer is missing, `Stop` returns. [Verif/Props/LogInit.lean:478; QP]

## C188 A server that is refused threads can be put away — partial

If the system refuses a thread while Init starts a server in multi-thread or mixed mode, Init reports it, and afterwards the server can be stopped, cleaned, destroyed or initialised again without a crash, and nothing it opened stays open.

Over: all servers that hold no multiplexer, all addresses, all answers of the system to the calls of Init, all descriptors open elsewhere in the process

* `C188_destroy_partial` — **C188**, multi-thread mode: if the system refuses a thread while a new server starts, the destructor returns, and every descriptor is as it was before `Init`. (The threads that did start end with the pool: `C185_destroy_partial`. Missing: the mixed mode, see `C188_mixed_refuted`.) [Verif/Props/StartThreads.lean:60; CQP]
* `C188_clean_partial` — **C188**, both modes: if `Clean` is called after the refusal, the destructor returns, and every descriptor is as it was. [Verif/Props/StartThreads.lean:72; CQP]
* `C188_again_partial` — **C188**, starting again: after the refusal and `Clean`, `Init` makes the same system calls, and returns the same, as if there had been no first attempt. [Verif/Props/StartThreads.lean:85; QP]
* `C188_mixed_refuted` — **C188**, refuted for the mixed mode: whenever a new server in mixed mode is refused a thread, its `Stop`, and so its destructor, follows a null pointer. [Verif/Props/StartThreads.lean:113; QP]
* `C188_again_refuted` — **C188**, refuted: if `Init` is called again without `Clean`, the socket of the first attempt stays open for ever, also when the server is destroyed. [Verif/Props/StartThreads.lean:140; CQP]

## C189 A TLS client knows who is at the other end — partial

When an HTTPS client's connection succeeds, the server at the other end is the one that was asked for: it shows a certificate that the machine has reason to believe, for the name that was asked for, and holds its key.

Over: all peers with any certificates, all sets of trusted certificates, all histories of calls on a TLS context, all answers of the system

* `C189_key_partial` — **C189**, what holds of `HttpClient::InitSSL`: it succeeds only if the peer has the key of the certificate that it shows. Missing: that the certificate is to be believed and is for the host that was asked for, see the refutation. [Verif/Props/TlsPeer.lean:51; QP]
* `C189_client_refuted` — **C189**, refuted for `HttpClient::InitSSL`: it succeeds whoever answers, with whatever certificate (self-signed, expired, for another name), and the client has no call that would change this. [Verif/Props/TlsPeer.lean:58; QP]
* `C189_own_refuted` — **C189**, refuted also for a `SSLContext` that made its context itself, by `InitCli`, `InitSvr` or `InitSvrFile`, whatever was called before: a socket that it creates connects to whoever answers. [Verif/Props/TlsPeer.lean:66; QP]
* `C189_given_partial` — **C189**, what holds of a `SSLContext` that was given contexts by its user (`Init`): if all of them verify the peer and ask for the name `host`, then after any calls of `Init` and `Close` a socket of it connects only to `host`. [Verif/Props/TlsPeer.lean:124; QP]

## C190 A log line reaches the file within the flush interval — partial

A line that was logged to a file logger is in the file when the flush interval (set_flush_interval_sec) is over, as soon as the logger's worker gets to run.

Over: all numbers and sizes of buffers, all intervals, all histories of logging calls and turns of the worker, all times at which they happen

* `C190_next_call_partial` — **C190**, what holds: a logging call makes the logger write what is old. If a line is logged at time `t`, and then the worker gets round to the tasks it has, all lines are in the file that were logged more than the flush interval before `t`. Missing: that they get there without another call, see the refutation. [Verif/Props/LogAge.lean:448; CQP]
* `C190_quiet_refuted` — **C190**, refuted: a message that does not fill its buffer and comes while the buffer counts as fresh stays in memory for as long as nothing else is logged, however long ago the flush interval is over, and whatever the worker does. [Verif/Props/LogAge.lean:490; QP]
* `C190_clock_refuted` — **C190**, refuted if the clock of the system is set back (the times here are what `time` says, not true time): as long as it shows no time later than the flush interval after `Init`, nothing is written before a buffer is full, however many messages are logged and however long that takes. [Verif/Props/LogAge.lean:511; QP]

## C191 A crash leaves a file as it was before or as it was to be — partial

If the program dies during File::Write, Append, Create or Remove, the file holds what it held before the call or what it would hold after it; no other file has changed, and calling the function again after a restart gives what it would have given.

Over: all file trees, paths, contents, ways the stream cuts the data into writes, and moments at which the program dies

* `C191_same_partial` — **C191**, the calls of this model, when nobody dies, are the functions of C97 to C100. [Verif/Props/FileCrash.lean:47; QP]
* `C191_write_partial` — **C191**, what holds of `Write`: whenever the program dies, the file is as it was before or holds a beginning of the new data, and all other files are as before. Missing: that it holds all of it, see the refutation. [Verif/Props/FileCrash.lean:131; QP]
* `C191_write_refuted` — **C191**, refuted for `Write`: for every file that is not empty there is a moment at which a crash leaves nothing of it, neither the old content nor the new. [Verif/Props/FileCrash.lean:145; CQP]
* `C191_append_partial` — **C191**, what holds of `Append` to a file: whenever the program dies, the file holds all that it held before, and behind it a beginning of the new data; all other files are as before. Missing: that it is all of it or nothing, see the refutation. [Verif/Props/FileCrash.lean:166; QP]
* `C191_append_single_partial` — **C191** holds of `Append` to a file if the stream hands over the data in one piece (libstdc++ does, and so a line of the logs is not torn if the system takes it as a whole). [Verif/Props/FileCrash.lean:186; QP]
* `C191_append_refuted` — **C191**, refuted for `Append` if the data is handed over in several pieces: a crash between them leaves a part. [Verif/Props/FileCrash.lean:209; QP]
* `C191_write_again_partial` — **C191**, what holds of `Write` after a restart: writing again gives the same as if the program had not died. [Verif/Props/FileCrash.lean:229; QP]
* `C191_remove` — **C191** holds of `Remove`: the file is there as before, or gone. [Verif/Props/FileCrash.lean:239; P]
* `C191_create_partial` — **C191**, what holds of `Create`: whenever the program dies, calling `Create` again gives what `Create` would have given, and nothing but the file and the directories that lead to it has changed meanwhile. [Verif/Props/FileCrash.lean:337; CQP]

## C192 The exit status of the web server says whether it did its work — partial

The web server that is shipped exits with status 0 exactly if it did what it was asked to do: print the help or the version, signal the running server with -stop, or serve until it is stopped.

Over: all command lines, file systems, pid files, configurations and answers of the parser and the network

* `C192_done_partial` — **C192**, what holds: if the web server did what it was asked to do, its exit status is 0. Missing: that it is another one if it did not, see the refutations. [Verif/Props/WebStatus.lean:14; QP]
* `C192_status_partial` — **C192**, what holds of failures: the status is not 0 exactly if the configuration was read and the parser refuses it, and the program is aborted exactly if reading the pid file or the configuration throws. [Verif/Props/WebStatus.lean:66; QP]
* `C192_refused_partial` — **C192** holds for a configuration that can be read and that the parser refuses: the status is 255 and no server runs. [Verif/Props/WebStatus.lean:134; QP]
* `C192_failed_refuted` — **C192**, refuted: a configuration file that is not there, a certificate that cannot be used, an address that is taken and a static file that is missing all give the status 0, although no server runs. [Verif/Props/WebStatus.lean:152; QP]
* `C192_stop_refuted` — **C192**, refuted for `-stop`: if the pid file holds no number above 66 nobody is signalled, and the status is 0. [Verif/Props/WebStatus.lean:193; QP]

## C193 A crash costs the log only its last lines — partial

If the program dies, the log file holds all lines that were logged, in their order, up to some point; what is missing are the last lines, no more than a buffer takes, and no line whose logging call has returned.

Over: all numbers and sizes of buffers, intervals, histories of logging calls and turns of the worker, and moments at which the program dies

* `C193_lost_partial` — **C193**, what holds: whenever the program dies, the lines in the file are the first of those that were logged, in their order; the lost ones are the last. If the worker has nothing left to do they are no more than one buffer takes. Missing: that none is lost, and a bound for a worker that is behind, see the refutations. [Verif/Props/LogCrash.lean:188; CQP]
* `C193_last_refuted` — **C193**, refuted: when a logging call (`Fatal` too) has returned, its message is not in the file yet, whatever was logged before; it is lost if the program dies before the worker has run. [Verif/Props/LogCrash.lean:200; CQP]
* `C193_behind_refuted` — **C193**, refuted for a worker that is behind: there is no bound on what is lost, whatever the settings. [Verif/Props/LogCrash.lean:234; P]

## C194 A trie survives running out of memory — partial

If a Set on a trie runs out of memory, it throws and the trie is as before: every stored key is found with its value, Search finds what it found before, and later calls work as ever. If a Reset runs out of memory, the trie can still be used or destroyed.

Over: all histories of Set and Reset with keys of 7-bit characters, all places of a call at which an allocation may fail

* `C194_kept_partial` — **C194**, if it is never a text that cannot be made (no key is longer than what fits into a `std::string` itself): whatever calls of a history run out of memory, at whatever node or value, the trie holds exactly what the calls that have returned have stored. `Search` finds that and nothing else, and `Get` and `Check` find every stored key; and a call with enough memory returns. (Missing: texts, see `C194_lost_refuted` and `C194_missed_refuted`; a `Reset` that runs out of memory, see `C194_reset_refuted`.) [Verif/Props/TrieMemory.lean:48; CQP]
* `C194_throws_partial` — **C194** (the call itself), under the same condition: a `Set` that throws has changed nothing that `Search` could find, and every stored key is still there. [Verif/Props/TrieMemory.lean:66; CQP]
* `C194_lost_refuted` — **C194**, refuted for texts: two keys part after their first bytes `p` (more than a `std::string` holds itself, 15 bytes in the GNU library). If the `Set` of the second cannot make the text `p` (the second text of its fork), it throws, and the first key is lost. [Verif/Props/TrieMemory.lean:136; QP]
* `C194_missed_refuted` — **C194**, refuted for texts: there is a key `a`. If the `Set` of a key `a b r` cannot make the text of the new node, it throws; the `Set` of `a b` afterwards returns, `Get` finds its value, but `Search` does not: it only finds that of `a`. [Verif/Props/TrieMemory.lean:188; QP]
* `C194_reset_refuted` — **C194**, refuted for `Reset`: whatever the history, if there is no memory for the new root, `Reset` throws after it has deleted everything, and the trie still refers to the root it had: its destructor, and every `Get` before, uses memory that is freed. [Verif/Props/TrieMemory.lean:220; CQP]

## C195 A logger that several MultiLoggers share gets each message once — partial

Loggers are shared objects: one may be given to several MultiLoggers, or several times to one. A message logged through a MultiLogger reaches every logger that it contains, directly or through other MultiLoggers, exactly once, in the order in which they were given.

Over: all graphs of loggers (sharing and containing themselves included), levels and messages, all stack sizes

* `C195_ways_partial` — **C195**, what holds if no `MultiLogger` contains itself, directly or through others (`rank`), and there are no null pointers: a message reaches a logger once for each way that leads to it, in the order of the lists, and each logger applies its own level; the calls need no more stack than the deepest nesting. Missing: `MultiLogger`s that contain themselves, see `C195_cycle_refuted`; that it is once, see `C195_shared_refuted`. [Verif/Props/LogGraph.lean:116; CQP]
* `C195_once_partial` — **C195**, when it is once: if moreover no logger is given to two `MultiLogger`s, or twice to one, a message reaches each logger at most once. Missing: loggers that are shared, see `C195_shared_refuted`. [Verif/Props/LogGraph.lean:168; CQP]
* `C195_shared_refuted` — **C195** is false of loggers that are shared: with `n` `MultiLogger`s above each other, each given the one below twice, a logger gets each message 2 ^ n times. [Verif/Props/LogGraph.lean:193; P]
* `C195_cycle_refuted` — **C195** is false of a `MultiLogger` that contains itself, directly or through others, or that contains such a one: every message overflows the stack, however large it is. [Verif/Props/LogGraph.lean:251; P]
* `C195_init_partial` — **C195**, `Init` on a `MultiLogger` that has loggers already, none of which, old or new, contains it: from then on a message goes to the old ones as before, and then to the new ones; and all other loggers that do not contain it do what they did. [Verif/Props/LogGraph.lean:319; QP]

## C196 A route that cannot be registered leaves the others alone — partial

If the registration of a route runs out of memory, it throws, and every request is answered as before; a registration that returns has its full effect, and later registrations do what they do without the failed one.

Over: all histories of registrations with routes of 7-bit characters, all places of a call at which an allocation may fail, all requests

* `C196_routes_partial` — **C196**, if it is never a text that cannot be made (no part of a route is longer than what fits into a `std::string` itself): after any history of registrations, of which any have thrown at any object they were to make, one more registration never faults. If it throws, every request is then answered exactly as before the call; if it returns, every request is answered exactly as if the call had had all the memory it wants; and with enough memory it returns. (Missing: texts, `C196_lost_refuted`; later registrations, `C196_later_refuted`.) [Verif/Props/ServerMemory.lean:109; CQP]
* `C196_enough` — **C196**: a registration that has all the memory it wants does what `RegisterHandler` does, on every server: it returns, or faults as that does. [Verif/Props/ServerMemory.lean:133; QP]
* `C196_lost_refuted` — **C196**, refuted for texts: two routes with a long part in common. The registration of the second throws where it cannot make the text of that part, and requests for the first are then no longer answered by its handler. [Verif/Props/ServerMemory.lean:169; P]
* `C196_later_refuted` — **C196**, refuted for registrations that come later: a registration that throws changes what a later one does. `/hello` is registered, then `/hel`: without anything in between the handler of `/hel` lands in the list of `/hello`; if a registration of `/helm` has thrown in between, it is a route of its own. [Verif/Props/ServerMemory.lean:179; P]

## C197 A logging call that runs out of memory costs no other line — partial

If a call of a file logger throws because memory runs out, the logger goes on as before: when Stop or the destructor has returned, the file holds every line that was logged, each exactly once, the line of the call that threw at most once.

Over: all executions of a file logger, all schedules of its worker, all clocks, all places of a logging call at which an allocation may fail

* `C197_kept_partial` — **C197**: whatever logging calls run out of memory, when they make their line, a further buffer or the task that flushes a buffer, and whatever the schedule of the worker and the clock: when `Stop` or the destructor has returned, the file holds its previous content followed by every line that was logged, each exactly once. (Missing: memory that runs out when the text of a new buffer is made, see `C197_room_refuted`.) [Verif/Props/LogMemory.lean:281; CQP]
* `C197_room_refuted` — **C197**, refuted if memory runs out when the text of a new buffer is made: the buffer is in the ring and is the current one, but is not counted, so that `Stop` leaves one buffer out. The call for the first line throws; the second line, whose call returns, never reaches the file. [Verif/Props/LogMemory.lean:394; CQP]

## C198 A logger that nobody uses any more is closed — partial

When the program has given up its pointers to a MultiLogger and its loggers, every one of them is destroyed, exactly once, so that a file logger among them writes what it still holds.

Over: all sets of loggers that hold each other in whatever way, all sets of pointers that the program gives up, in every order

* `C198_closed_partial` — **C198**, if no `MultiLogger` contains itself, directly or through others (`rank`): when the program gives up its pointers to loggers, of whatever classes, shared or not, every logger is destroyed, exactly once. (Missing: cycles, see `C198_cycle_refuted`.) [Verif/Props/LogOwners.lean:164; CQP]
* `C198_cycle_refuted` — **C198**, refuted for cycles: whatever loggers there are and whatever pointers the program gives up, a logger in a set of which each is held by a `MultiLogger` in the set, or held by one that is (`m->Init({m, file_logger})`), is not destroyed: a `FileLogger` there never writes the lines that it still holds. [Verif/Props/LogOwners.lean:201; CQP]

## C199 A pool whose program runs out of memory keeps the tasks it has — partial

If AddTask throws because memory runs out, the pool has not accepted the task and is otherwise as before: its mutex is free, every task for which AddTask returned 0 is still queued, in the hands of exactly one worker or finished, free workers go on to take tasks, Stop waits for what is running, and the program is not terminated.

Over: all executions of a pool with any number of threads calling it, all schedules, all sets of calls and of workers whose allocation fails

* `C199_once_partial` — **C199**, whatever allocations fail: what was accepted is queued, in the hands of one worker or finished, and nothing is run twice. The pool has accepted one task for each `AddTask` that returned 0, and perhaps the one of a call that is about to return 0; none for a call that threw. [Verif/Props/PoolMemory.lean:214; CQP]
* `C199_threw` — **C199**: a call of `AddTask` that threw has left the mutex to the others, and neither a task nor a worker has changed. [Verif/Props/PoolMemory.lean:229; CQP]
* `C199_progress_partial` — **C199**: as long as there is a worker without a task, the first task of the queue can be taken, by steps of the pool and the calls already begun alone, whatever calls threw before. [Verif/Props/PoolMemory.lean:237; CQP]
* `C199_stop_partial` — **C199**, with one controlling thread: when `Stop` returns no worker has a task, and the accepted tasks are the finished ones and those still in the queue. [Verif/Props/PoolMemory.lean:284; QP]
* `C199_destroy_partial` — **C199**: calls of `AddTask` that throw never terminate the program: a pool that was initialised once can be used, stopped and destroyed by its controlling thread. [Verif/Props/PoolMemory.lean:339; QP]
* `C199_worker_refuted` — C199 is false of a worker that runs out of memory when it takes a task: the program is terminated, and the task that `AddTask` accepted is never run. [Verif/Props/PoolMemory.lean:366; CQP]
