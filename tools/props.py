#!/usr/bin/env python3
"""Source of /verif/properties.jsonl (run: python3 tools/props.py). Append only; ids are stable."""
import json, os
P = []
def p(id, title, statement, quantifier, why, anchors):
    P.append(dict(id=id, title=title, statement=statement, quantifier=quantifier, why_tests_cant=why, anchors=anchors))

S = "src/cppnet/"
# ---------------------------------------------------------------- string utilities
p("C01", "Split cuts a string exactly at the delimiter",
  "For a non-empty delimiter, StringUtil::Split appends a list of pieces such that re-joining them with the delimiter gives back the original string, no piece contains the delimiter, and every cut is made at the leftmost possible place; with keep_delimiter the plain concatenation of the pieces is the original string. Pieces already in the output vector are kept in front.",
  "all byte strings, all non-empty delimiters, all initial contents of the output vector", "infinitely many strings and self-overlapping delimiters", [S+"utils/string.cpp: StringUtil::Split"])
p("C02", "Split terminates",
  "StringUtil::Split returns for every pair of strings.",
  "all byte strings and all delimiters, the empty one included", "non-termination cannot be observed by a finite run, and the loop's progress argument has to hold for every input", [S+"utils/string.cpp: StringUtil::Split"])
p("C03", "URL decoding inverts URL encoding",
  "UrlDecode(UrlEncode(s)) == s for every byte string s.",
  "all byte strings (every byte value, every length)", "256^n inputs", [S+"utils/string.cpp: StringUtil::UrlEncode, StringUtil::UrlDecode"])
p("C04", "URL encoding emits only safe bytes",
  "Every byte UrlEncode emits is an ASCII letter or digit, one of - _ . ~ / = ? & +, or belongs to a complete %XX escape with upper-case hex digits; in particular the result never contains a space, CR, LF, NUL or a byte >= 0x80, and it is at most three times as long as the input.",
  "all byte strings", "has to hold for each byte at each position", [S+"utils/string.cpp: StringUtil::UrlEncode"])
p("C05", "URL decoding follows the percent-encoding rules",
  "For every input whose percent signs all start a complete two-hex-digit escape (either letter case) UrlDecode returns the string with each escape replaced by the byte it denotes, each + by a space and every other byte unchanged; every other input (a truncated or non-hex escape) is rejected with the empty string. UrlDecode never reads outside the string.",
  "all byte strings, well-formed or not", "unbounded inputs; malformed tails at every offset", [S+"utils/string.cpp: StringUtil::UrlDecode"])
p("C06", "WildCardMatch implements glob matching",
  "WildCardMatch(pattern, s) is true exactly when s can be obtained from pattern by replacing every * by some (possibly empty) byte string and every ? by some single byte.",
  "all patterns and all strings below 2^31 - 1 bytes", "unbounded patterns and strings; the table is filled for every pair of positions", [S+"utils/string.cpp: StringUtil::WildCardMatch", S+"http/server/filter/http_host_filter.hpp: HttpHostFilter::IsMatchFilter"])
p("C07", "File::Suffix returns the text after the last dot of the last path component",
  "File::Suffix(path) is the part of the final path component after its last dot, or empty when that component has no dot; the result never contains a dot or a slash and never throws.",
  "all path strings", "all placements of dots and slashes", [S+"utils/file.cpp: File::Suffix"])
# ---------------------------------------------------------------- trie
p("C08", "Trie::Search reports exactly the stored prefixes",
  "After any sequence of Set and Reset calls, Search(key) calls the callback once for each stored key that is a prefix of key, in order of increasing length, with the value most recently stored for it, passing is_last = true only for key itself, and stops right after the first call that returns false.",
  "all histories of Set/Reset with ASCII keys, all search keys, all callbacks", "all insertion orders and all shapes of the compressed tree", [S+"utils/trie.cpp: Trie::SearchNode, Trie::SetNode, Trie::ForkNode", S+"utils/trie.hpp: Trie::Search"])
p("C09", "Trie::Get returns the latest value stored for a key",
  "After any history in which key k was Set and not erased by Reset, Get(k) returns the value of the last Set(k), whatever other keys were stored before or after it.",
  "all histories of Set/Reset with ASCII keys", "all insertion orders; node splitting at every position", [S+"utils/trie.cpp: Trie::GetNode, Trie::SetNode"])
p("C10", "Trie::Get and Check find nothing for a key that was never stored",
  "Get(k) returns nullptr and Check(k) returns false whenever k was never Set since the last Reset.",
  "all histories and all keys", "all histories", [S+"utils/trie.cpp: Trie::GetNode, Trie::Check"])
p("C11", "Trie operations are memory safe for every key",
  "Set, Get, Check and Search never index outside the child table and always terminate, whatever bytes the key holds.",
  "all histories and all keys, including bytes >= 0x80", "undefined behaviour may stay silent in a test run", [S+"utils/trie.cpp", S+"utils/trie.hpp: Trie::Node"])
p("C12", "Trie contents do not depend on insertion order",
  "Two histories that store the same final value for the same keys are indistinguishable by Get, Check and Search; Reset makes the trie indistinguishable from a new one.",
  "all pairs of histories with equal effect", "all permutations of insertions", [S+"utils/trie.cpp"])
# ---------------------------------------------------------------- enums
p("C13", "Method, version and status conversions are mutually inverse",
  "ConvertToMethod/ConvertToVersion/ConvertToCode invert ConvertToStr (and the numeric status value) on every known enumerator, map every other string or integer to UNKNOWN, and accept exactly one spelling per enumerator.",
  "all enumerators, all strings, all ints", "all strings and all ints", [S+"http/req/method/http_method.cpp", S+"http/version/http_version.cpp", S+"http/resp/status_code/http_status_code.cpp"])
p("C14", "Content types convert back and forth",
  "ConvertToContentType(ConvertToStr(t)) == t for every built-in content type and the content type stored by SetContentType(t) is the one GetContentType reports; a file type registered with SetCustomContentType is reported as custom with exactly the registered string unless it is one of the built-in file types.",
  "all content types, all file-type strings, all registration histories", "all strings and registration histories", [S+"http/header/http_header.cpp: ConvertToContentType, ConvertFileType, ConvertToStr, SetCustomContentType"])
# ---------------------------------------------------------------- header
p("C15", "Header text round-trips",
  "Parsing the text ToString produced (without its final blank line) into an empty header gives back every key and value, in whatever order the hash map enumerates them, for every header whose keys contain no colon and whose keys and values contain no CR or LF and no value is empty or starts with a space.",
  "all such header maps, all hash-map iteration orders", "iteration order is unspecified; unboundedly many maps", [S+"http/header/http_header.cpp: HttpHeader::Parse, HttpHeader::ToString"])
p("C16", "Header parsing splits key and value at the first colon and the last duplicate wins",
  "If every CRLF-separated line of the text has a colon, Parse succeeds and Get(k) is the value of the last line whose text before its first colon is k, with leading spaces removed (lines whose value is blank are the subject of C17); if some line has no colon Parse fails with kLogicErr and exactly the lines before it have been stored.",
  "all header texts, all previous header contents", "all texts", [S+"http/header/http_header.cpp: HttpHeader::Parse, HttpHeader::Add, HttpHeader::Get"])
p("C17", "An empty header value is parsed as empty",
  "A header line with nothing but spaces after its colon is stored with the empty value.",
  "all keys, all numbers of spaces", "rests on the wrap-around of npos arithmetic for every line", [S+"http/header/http_header.cpp: HttpHeader::Parse"])
p("C18", "Content-Length is stored and read back exactly",
  "After SetContentLength(n), GetContentLength() == n for every int n; Build announces the exact number of body bytes for every body.",
  "all 2^32 ints, all bodies", "all values and body sizes", [S+"http/header/http_header.cpp: SetContentLength, GetContentLength", S+"http/resp/http_resp.cpp: HttpResp::Build"])
p("C19", "GetContentLength is total",
  "GetContentLength never throws; it is -1 when the header is absent or its text has no leading decimal integer fitting an int, and otherwise is the value of the longest leading (optionally signed, optionally white-space prefixed) decimal numeral.",
  "all header values", "all strings, incl. overflow at every length", [S+"http/header/http_header.cpp: HttpHeader::GetContentLength"])
p("C20", "Cookie lookup returns the value of the first cookie with that name",
  "GetCookieVal(k) returns the text after the first = of the first ;-separated item of the Cookie header whose name (text before the =, leading spaces removed) is k, and the empty string if there is none; it never throws.",
  "all Cookie header texts and keys", "all texts", [S+"http/header/http_header.cpp: HttpHeader::GetCookieVal"])
# ---------------------------------------------------------------- route
p("C21", "Route parsing",
  "HttpRoute::Parse of a non-empty target sets the path to the text before the first ?, and for each &-separated item after it stores the URL-decoded text after the item's first = (or the empty value) under the text before it, later items overriding earlier ones; it fails only for the empty target, and never throws.",
  "all targets, all previous parameter contents", "all targets", [S+"http/req/route/http_route.cpp: HttpRoute::Parse, GetParam"])
p("C22", "Route text round-trips",
  "Parsing the text ToString() produced into an empty route gives back the path and every parameter, for every iteration order, whenever the path is non-empty, path and keys consist of bytes that UrlEncode leaves alone (no ? in the path, no = & in keys) and values contain no &.",
  "all such routes, all byte values in parameter values except &, all iteration orders", "unordered_map order, all byte strings", [S+"http/req/route/http_route.cpp: HttpRoute::ToString, HttpRoute::Parse"])
# ---------------------------------------------------------------- req/resp
p("C23", "Request build/parse round-trip",
  "Parsing what HttpReq::Build produced gives a request with the same method, version, path, parameters and body, and the same headers plus the generated Host and Content-Length.",
  "all well-formed requests with at least the generated headers, all bodies, all iteration orders", "unbounded requests; parsing cuts at searched positions", [S+"http/req/http_req.cpp: HttpReq::Build, HttpReq::Parse"])
p("C24", "Path and parameters cannot inject into the request line",
  "Whatever bytes the path, parameter names and values hold (CR, LF, spaces included), the text Build produces starts with exactly one request line 'METHOD target VERSION' whose target has no space, CR or LF.",
  "all paths, parameter maps and iteration orders", "adversarial bytes at any position", [S+"http/req/http_req.cpp: HttpReq::Build", S+"http/req/route/http_route.cpp: HttpRoute::ToString"])
p("C25", "Header values cannot inject further headers or end the header block",
  "For every header value a caller sets, the built message parsed by a conforming parser has no header the caller did not set.",
  "all header maps", "adversarial values", [S+"http/header/http_header.cpp: HttpHeader::Add, HttpHeader::ToString"])
p("C26", "HttpReq::Parse is total",
  "HttpReq::Parse returns kSuccess or kLogicErr for every byte string and every previous object state: it never throws, loops or reads out of bounds.",
  "all byte strings, all previous states", "every malformed input", [S+"http/req/http_req.cpp: HttpReq::Parse"])
p("C27", "HttpReq::Parse accepts exactly the well-formed requests",
  "Parse succeeds exactly when the text has a CRLFCRLF, its first line is three space-separated tokens (a known method, a non-empty target, a known version) and every header line has a colon.",
  "all byte strings", "all malformed inputs", [S+"http/req/http_req.cpp: HttpReq::Parse"])
p("C28", "Response build/parse round-trip",
  "Parsing what HttpResp::Build produced gives the same status code, version, body and headers (plus the generated Content-Length).",
  "all responses with a known status and well-formed headers, all bodies, all iteration orders", "unbounded bodies incl. ones containing CRLFCRLF", [S+"http/resp/http_resp.cpp: HttpResp::Build, HttpResp::Parse"])
p("C29", "HttpResp::Parse is total",
  "HttpResp::Parse returns kSuccess or kLogicErr for every byte string: it never throws.",
  "all byte strings", "every malformed input", [S+"http/resp/http_resp.cpp: HttpResp::Parse"])
p("C30", "Messages are self-delimiting",
  "In the text HttpResp::Build (or HttpReq::Build) produces from well-formed headers, the first CRLFCRLF ends the header block, what follows is exactly the body, and its length is the announced Content-Length.",
  "all such messages with bodies below 2 GiB (what larger ones announce: C18), all iteration orders", "all bodies and header maps", [S+"http/resp/http_resp.cpp: HttpResp::Build", S+"http/req/http_req.cpp: HttpReq::Build"])
p("C31", "Response helpers set status, body and type",
  "NotFound, Redirect, SuccessWithBinary, SuccessWithJson, Success, BadRequest, InternalServerError, Json and Text set exactly the documented status, body and Content-Type (and Location) and change no other header, from any previous state; only UNKNOWN status makes Build fail.",
  "all previous response states and arguments", "all states", [S+"http/resp/http_resp.cpp"])
p("C32", "The result of Parse depends only on the input",
  "Parsing a text into a request or response object that was used before gives the same observable object as parsing it into a fresh one.",
  "all previous object states, all inputs", "all histories of object reuse", [S+"http/req/http_req.cpp: Parse, Clear", S+"http/resp/http_resp.cpp: Parse, Clear"])
# ---------------------------------------------------------------- socket
p("C33", "ReadUntil returns exactly the bytes up to and including the delimiter",
  "When the incoming byte stream contains the delimiter, ReadUntil into an empty buffer stores the shortest prefix of the stream that ends with the delimiter, returns its length and leaves all later bytes unread; when the stream ends first it returns the result of the failing receive.",
  "all byte streams, all non-empty delimiters, all stream ends", "all streams; over-reading would corrupt the next message", [S+"socket/socket.cpp: Socket::ReadUntil"])
p("C34", "ReadUntil never throws",
  "No byte sequence sent by the peer makes ReadUntil throw or access memory out of range.",
  "all byte streams and delimiters", "adversarial peers", [S+"socket/socket.cpp: Socket::ReadUntil"])
p("C35", "Read and ReadPeek deliver the received bytes",
  "After Socket::Read(buf, len, complete) returned n >= 0, buf holds exactly the n received bytes (n = len when complete is set and the stream has that many), ReadPeek leaves the stream untouched.",
  "all incoming byte streams, all lengths", "all byte values, NUL included", [S+"socket/socket.cpp: Socket::Read, Socket::ReadPeek"])
p("C36", "A closed or uninitialised socket performs no I/O",
  "Once Close returned (or before Init succeeded) every Read, Write, Connect, Bind, Listen, Accept and Close on that object fails with -1 (Accept: an uninitialised socket) without a system call on the old descriptor, until Init is called again; Close issues exactly one close per successful Init.",
  "all sequences of calls on one Socket object", "all call histories", [S+"socket/socket.cpp"])
# ---------------------------------------------------------------- http server / client
p("C37", "Requests reach the server unchanged",
  "When an HttpClient sends a request over a reliable stream to an HttpServer, the server's handlers see the same method, path, parameters and body and every header the client set; pipelined bytes of later requests stay in the stream.",
  "all well-formed requests, all bodies", "all bodies (binary included), all lengths", [S+"http/client/http_client.cpp: HttpClient::Send", S+"http/server/http_server.cpp: HttpServer::HandleRead"])
p("C38", "Responses reach the client unchanged",
  "The response a handler sets is what HttpClient::Send returns: same status, headers and body.",
  "all responses with well-formed headers, all bodies", "all bodies", [S+"http/client/http_client.cpp: HttpClient::Send", S+"http/server/http_server.cpp: HttpServer::HandleRead"])
p("C39", "Send reports success only for a complete response",
  "HttpClient::Send returns 0 only if the request was written and a complete response (header block and Content-Length bytes) was received and parsed.",
  "all behaviours of the connection", "every failure point of the connection", [S+"http/client/http_client.cpp: HttpClient::Send"])
p("C40", "Routing runs exactly the matching handlers in order",
  "For every request path the server calls the handlers registered on a full path (group prefix + path) equal to it, and the non-exact handlers (Use, StaticDir) registered on a prefix of it, whose filters all accept: shortest path first, in registration order on equal paths.",
  "all registration sequences (groups included) and all request paths", "all orders of registration and overlapping paths", [S+"http/server/http_server.cpp: HttpGroup::RegisterHandler, HttpServer::HandleRead"])
p("C41", "A handler registered with GET (POST) runs only for GET (POST) requests",
  "No request with another method reaches a handler registered through GET or POST.",
  "all registrations, all requests", "all requests", [S+"http/server/http_server.cpp: HttpGroup::GET, HttpGroup::POST"])
p("C42", "Abort stops the handler chain",
  "After a handler calls ctx.Abort() (and no later Next), no further handler runs for that request.",
  "all handler chains", "all chains", [S+"http/server/http_server.hpp: HttpContext::Abort", S+"http/server/http_server.cpp: HttpServer::HandleRead"])
p("C43", "StaticDir never serves files outside its directory",
  "Every path StaticDir opens is the configured directory, a slash and a suffix of the request path that has no '..' in it, so after lexical normalisation it lies inside the configured directory.",
  "all request paths and mount paths, all non-empty directory names (an empty one is the root directory: C43_empty_dir_escapes)", "adversarial paths", [S+"http/server/http_server.cpp: HttpGroup::StaticDir"])
p("C44", "Static handlers serve the file's bytes with its content type",
  "For a GET of an existing readable file, StaticFile and StaticDir answer 200 with exactly the file's bytes and the content type of its suffix (a registered custom type included).",
  "all file contents, suffixes and custom registrations", "all contents and registrations", [S+"http/server/http_server.cpp: HttpGroup::StaticDir, HttpGroup::StaticFile"])
p("C45", "Every readable request is answered exactly once",
  "For every complete request the server writes exactly one response: 400 (then close) when parsing fails, 404 when no handler set a status, otherwise the handler's response.",
  "all inputs on a healthy connection, all handlers", "all inputs", [S+"http/server/http_server.cpp: HttpServer::HandleRead"])
p("C46", "No client input crashes the server",
  "Whatever bytes a client sends, HandleRead finishes without an exception or undefined behaviour.",
  "all byte streams", "adversarial input", [S+"http/server/http_server.cpp: HttpServer::HandleRead", S+"utils/trie.cpp", S+"socket/socket.cpp"])
p("C47", "A truncated request body is rejected",
  "A handler never runs for a request whose announced Content-Length bytes did not all arrive.",
  "all streams that end early", "every truncation point", [S+"http/server/http_server.cpp: HttpServer::HandleRead"])
# ---------------------------------------------------------------- thread pool
p("C48", "Accepted tasks run at most once, in FIFO order",
  "Under every interleaving of workers and clients, the sequence of started tasks is a prefix of the sequence of accepted tasks: nothing is run twice, nothing that was not accepted is run, and tasks start in the order they were queued.",
  "all thread interleavings, any number of workers and clients", "schedules", [S+"utils/threadpool.cpp: ThreadPool::AddTask, ThreadPool::Worker"])
p("C49", "A running pool never forgets a queued task",
  "While the pool is running with at least one worker, a non-empty queue always has a worker that is awake (not blocked waiting for a notification) or an AddTask that is about to notify one, so no wake-up is lost and the pool cannot deadlock with work pending.",
  "all interleavings", "lost wake-ups depend on the schedule", [S+"utils/threadpool.cpp: ThreadPool::AddTask, ThreadPool::Worker"])
p("C50", "Stop waits for running tasks and afterwards nothing runs",
  "When Stop has returned, every worker has exited, no task is executing and none starts later.",
  "all interleavings", "schedules", [S+"utils/threadpool.cpp: ThreadPool::Stop"])
p("C51", "Stop runs every accepted task before it returns",
  "Every task for which AddTask returned kSuccess has been executed when Stop returns.",
  "all interleavings", "schedules", [S+"utils/threadpool.cpp: ThreadPool::Stop, ThreadPool::Worker"])
p("C52", "Stop always terminates",
  "From every reachable state, once all running tasks finish, Stop returns: no worker can stay blocked after Stop's notification.",
  "all interleavings", "lost wake-ups depend on the schedule", [S+"utils/threadpool.cpp: ThreadPool::Stop, ThreadPool::Worker"])
p("C53", "Resize keeps the pool usable",
  "After Resize(n) with n > 0 the pool has n live workers and accepts tasks; destroying it afterwards is safe.",
  "all histories of Init, Resize, AddTask, Stop and destruction", "histories", [S+"utils/threadpool.cpp: ThreadPool::Resize, ThreadPool::Stop"])
p("C54", "GetBusyAndTaskNum reports consistent numbers",
  "The reported task number is the exact queue length and the busy number never exceeds the number of workers and equals the number of workers currently between taking up and finishing a task.",
  "all interleavings", "schedules", [S+"utils/threadpool.cpp: ThreadPool::GetBusyAndTaskNum"])
# ---------------------------------------------------------------- loggers
p("C55", "FileLogger loses and duplicates nothing",
  "If every file append succeeds, after Stop the file holds its previous content followed by every logged line exactly once, for every schedule of the background flusher and every clock.",
  "all logging histories, all flush schedules, all clocks, all buffer sizes/counts >= 1", "schedules", [S+"log/file_logger.cpp"])
p("C56", "FileLogger keeps the order of lines",
  "Lines appear in the file in the order they were logged.",
  "all logging histories and flush schedules", "schedules", [S+"log/file_logger.cpp: FileLogger::Stop, FileLogger::CheckFlush"])
p("C57", "Failed appends do not lose lines",
  "If an append fails, its lines stay buffered and are written by a later Stop whose appends succeed.",
  "all patterns of append failures", "fault patterns", [S+"log/file_logger.cpp: FileLogger::FlushBuffer"])
p("C58", "Log level filtering",
  "A logger emits a message exactly when the message's level is at least the logger's level; MultiLogger passes every message to each of its loggers, in order, each applying its own level.",
  "all levels, all messages, all nestings of loggers", "all combinations", [S+"log/std_logger.hpp", S+"log/file_logger.cpp", S+"log/multi_logger.cpp"])
p("C59", "FileLogger::Init reports an unusable file",
  "Init returns 0 only if the logger is usable afterwards (later messages reach the file).",
  "all outcomes of file creation and permission check", "environment outcomes", [S+"log/file_logger.cpp: FileLogger::Init"])
# ---------------------------------------------------------------- tcp server
p("C60", "Data that arrived before the peer closed is delivered",
  "When a peer sends data and then closes, the server gets a read event for the data before the leave event.",
  "all event batches", "event combinations depend on timing", [S+"server/io_multiplexing/epoll.cpp: Epoll::Loop"])
p("C61", "In I/O multiplexing mode every accepted connection is closed exactly once",
  "For every sequence of events, each connection delivered with kEventAccept is closed once, right after its kEventLeave or kEventError callback, is no longer monitored afterwards, and no descriptor is leaked or closed twice.",
  "all event sequences", "histories", [S+"server/tcp_server.cpp: HandleAccept, HandleLeave, HandleError, EventLoop"])
p("C62", "In multi-thread mode every accepted connection is closed",
  "Each accepted connection's descriptor is closed after its kEventLeave callback.",
  "all connections", "histories", [S+"server/tcp_server.cpp: TcpServer::EventLoop"])
p("C63", "A failed Init leaks nothing",
  "When TcpServer::Init returns an error, every descriptor it opened is closed again.",
  "all failure points of Init", "each failing system call", [S+"server/tcp_server.cpp: CreateSocket, Init, InitMode"])
p("C64", "A registered callback is the one that is called",
  "After Register(cb) every event is delivered to cb.",
  "all orders of Init, Register", "histories", [S+"server/tcp_server.cpp: Register, InitMode"])
# ---------------------------------------------------------------- address, ssl, context
p("C65", "Addresses round-trip",
  "Address(ip, port) reports the same port for every port and the same ip text for every canonical dotted quad, ToString is 'ip:port'; Init fails for text that is not an address.",
  "all 2^16 ports, all 2^32 addresses, all strings", "2^48 combinations", [S+"socket/address.cpp"])
p("C66", "A complete SSL read returns all requested bytes or fails",
  "SSLSocket::Read(buf, len, true) returns len with exactly the next len stream bytes in buf, or, if the stream ends before or len is 2 GiB or more, an error; it never returns a short count, whatever record sizes SSL_read delivers.",
  "all record fragmentations, all lengths", "fragmentations", [S+"ssl/ssl_socket.cpp: SSLSocket::IORead"])
p("C67", "Context data is typed and keyed",
  "HttpContext::Get<T>(k) returns the value of the last Set<T'>(k, v) if T' = T and a default T otherwise, for every history of Set/Get calls.",
  "all histories", "histories", [S+"http/server/http_server.hpp: HttpContext::Get, HttpContext::Set"])
p("C68", "SetCookie keeps cookies apart",
  "After several SetCookie calls the response carries one Set-Cookie header per cookie.",
  "all cookie sequences", "sequences", [S+"http/header/http_header.cpp: HttpHeader::SetCookie"])
p("C69", "A response whose header block is not terminated is rejected",
  "HttpResp::Parse returns an error for every text that does not contain CRLFCRLF.",
  "all byte strings without CRLFCRLF", "every truncation point", [S+"http/resp/http_resp.cpp: HttpResp::Parse"])
p("C70", "Paths with special characters survive the wire",
  "Parsing the text of a built request gives back the path that was set, for every path (spaces, percent signs and non-ASCII bytes included).",
  "all paths", "all byte strings", [S+"http/req/route/http_route.cpp: HttpRoute::ToString, HttpRoute::Parse"])
p("C71", "Option setters do not touch a closed socket's descriptor",
  "SetNoBlock, SetBlock, SetReuseAddr, SetReadTimeout, SetWriteTimeout and SetSockOpt on a closed Socket make no system call on the old descriptor number.",
  "all sequences of calls on one Socket object", "all call histories", [S+"socket/socket.cpp: SetNoBlock, SetBlock, SetSockOpt"])
p("C72", "ReadPeek leaves the data in the connection, SSL or not",
  "After ReadPeek the next Read returns the same bytes again, on a plain and on an SSL socket.",
  "all incoming streams, lengths, record sizes", "all streams and fragmentations", [S+"ssl/ssl_socket.cpp: SSLSocket::IORead", S+"socket/socket.cpp: Socket::ReadPeek"])
p("C73", "Closing an SSL socket says goodbye before the descriptor is closed",
  "SSLSocket::Close performs the SSL shutdown on the open descriptor, closes the descriptor exactly once, and makes no call on the descriptor number after it is closed.",
  "all sequences of calls on one SSLSocket object", "use of a closed descriptor number only shows when it was reused", [S+"ssl/ssl_socket.cpp: SSLSocket::Close, SSLSocket::CloseSSL"])
p("C74", "Static handlers outlive the group object",
  "A handler registered by StaticDir or StaticFile through any HttpGroup, also a temporary one, serves requests for as long as the server runs.",
  "all groups, paths, files, requests", "undefined behaviour on a dead object may go unnoticed in a test", [S+"http/server/http_server.cpp: HttpGroup::StaticDir, HttpGroup::StaticFile"])
p("C75", "A response is sent completely or the connection is closed",
  "After HandleRead, either all bytes of the response were passed to the connection or the connection is closed.",
  "all responses, all outcomes of the write", "write outcomes depend on buffers and timing", [S+"http/server/http_server.cpp: HttpServer::HandleRead", S+"socket/socket.cpp: Socket::Write"])
p("C76", "A host filter accepts exactly the matching hosts",
  "A HttpHostFilter initialised with a regular expression accepts a request iff its Host matches the expression, one initialised with a wildcard iff its Host matches the wildcard.",
  "all expressions, wildcards, requests", "all strings", [S+"http/server/filter/http_host_filter.hpp"])
p("C77", "StaticDir maps a URL to the file of the same relative name",
  "A request for mount ++ '/' ++ rel, where mount is the full mount path (group prefix and path), is answered from dir ++ '/' ++ rel.",
  "all group prefixes, paths, directories, relative names", "all strings", [S+"http/server/http_server.cpp: HttpGroup::StaticDir"])

p("C78", "AddTask's result tells whether the task was queued",
  "The tasks the pool has accepted are exactly those of the AddTask calls that returned kSuccess, in the order in which they were queued, apart from a call that is about to return.",
  "all interleavings of any number of threads", "schedules", [S+"utils/threadpool.cpp: ThreadPool::AddTask"])
p("C79", "A stopped pool accepts nothing any more",
  "Every AddTask call begun after a call of Stop has returned is refused, whatever else is called in between.",
  "all interleavings, all later histories", "schedules and histories", [S+"utils/threadpool.cpp: ThreadPool::Stop, ThreadPool::AddTask"])
p("C80", "The normal life of a pool does not terminate the program",
  "A pool that one thread initialises once, stops any number of times and destroys never calls std::terminate (no joinable thread is destroyed, none is joined twice), whatever tasks other threads add meanwhile, as long as no task throws.",
  "all interleavings", "schedules", [S+"utils/threadpool.cpp: ThreadPool::Init, ThreadPool::Stop", S+"utils/threadpool.hpp: ~ThreadPool"])
p("C81", "set_level limits what a logger emits",
  "After set_level(v) a logger, of whatever class, emits no message of a level below v.",
  "all loggers, levels, messages", "all combinations", [S+"log/logger.hpp: Logger::set_level", S+"log/multi_logger.cpp"])
p("C82", "FileLogger::Stop and the destructor return",
  "From every reachable state a call of Stop (or the destructor) returns once the running flush has ended.",
  "all interleavings of the logging thread and the background thread", "schedules", [S+"log/file_logger.cpp: FileLogger::Stop", S+"utils/threadpool.cpp: ThreadPool::Stop"])
p("C83", "A FileLogger can be stopped, initialised again and destroyed",
  "Whatever sequence of Init, logging calls and Stop is made, destroying the logger never terminates the program.",
  "all histories and schedules", "histories and schedules", [S+"log/file_logger.cpp: FileLogger::Init, FileLogger::Stop", S+"utils/threadpool.cpp"])
p("C84", "The log file only ever holds whole lines",
  "At every moment, before Stop too, the file holds its previous content followed by whole logged lines, none more often than it was logged (as long as the operating system takes every write that it starts completely, Stop can open the file, and the number of buffers is at least one and set before Init).",
  "all moments of all executions", "schedules, crash points", [S+"log/file_logger.cpp: FileLogger::FlushBuffer, FileLogger::CheckFlush"])

p("C85", "Stop ends the event loop",
  "After Stop, followed by WakeUp, EventLoop returns in every mode without anything else having to happen, and handles nothing that is reported later.",
  "all modes, all moments of Stop, all reports", "schedules", [S+"server/tcp_server.cpp: TcpServer::Stop, TcpServer::WakeUp, TcpServer::EventLoop", S+"server/io_multiplexing/epoll.cpp: Epoll::Loop, Epoll::Stop"])
p("C86", "The trigger type that was set is used",
  "After io_multiplexing()->set_trigger_type(kEdgeTrigger) descriptors added later are watched edge-triggered.",
  "all histories", "not visible in the results of the calls", [S+"server/io_multiplexing/io_multiplexing_base.hpp: set_trigger_type", S+"server/io_multiplexing/epoll.hpp: trigger_type_"])
p("C87", "In mixed mode a connection is handled by one task at a time, and not after it was closed",
  "At most one task of a connection is queued or running, and none when its descriptor is closed.",
  "all schedules of the loop and the pool", "schedules", [S+"server/tcp_server.cpp: TcpServer::EventLoop, TcpServer::HandleRead"])
p("C88", "Clean releases the server's own descriptors",
  "After Clean every descriptor the server opened for itself (listening sockets, epoll descriptors, wake-up sockets) is closed; a second Clean closes nothing.",
  "all histories", "histories", [S+"server/tcp_server.cpp: TcpServer::Clean, TcpServer::Init, TcpServer::WakeUp"])
p("C89", "No order of calls crashes the server",
  "No sequence of calls on a TcpServer goes through a null pointer or an empty callback.",
  "all histories, answers of the system, actions of the callbacks", "histories", [S+"server/tcp_server.cpp"])

p("C90", "I/O on a closed TLS socket is refused",
  "After Close or CloseSSL on an SSLSocket, reading and writing return an error and touch neither session nor descriptor.",
  "all histories of calls on the object", "histories", [S+"ssl/ssl_socket.cpp: SSLSocket::CloseSSL, SSLSocket::IORead, SSLSocket::IOWrite"])
p("C91", "Only a completed handshake gives a TLS socket",
  "AcceptSSL returns a socket exactly when the TLS handshake completed; otherwise the session made for it is freed.",
  "all connections and all results of the handshake", "the results of SSL_accept are outside the test's control", [S+"ssl/ssl_context.cpp: SSLContext::AcceptSSL"])
p("C92", "A server context that was initialised has the given certificate and key",
  "When InitSvr or InitSvrFile returns success, the context in use was given the certificate and the private key.",
  "all arguments and all answers of OpenSSL", "answers of OpenSSL", [S+"ssl/ssl_context.cpp: SSLContext::InitSvr, SSLContext::InitSvrFile"])
p("C93", "A SSLContext frees what it made",
  "Every SSL_CTX that a SSLContext makes or is given is freed exactly once by the end of the object's life.",
  "all histories of calls, all answers of OpenSSL", "histories, failures of OpenSSL", [S+"ssl/ssl_context.cpp: SSLContext::Init, SSLContext::InitCli, SSLContext::InitSvr, SSLContext::Close"])
p("C94", "A TLS socket that cannot be made leaves no descriptor behind",
  "CreateSSLSocket() either returns a TLS socket that owns the new descriptor or leaves no descriptor open.",
  "all answers of the system and OpenSSL", "failures of OpenSSL", [S+"ssl/ssl_context.cpp: SSLContext::CreateSSLSocket"])
p("C95", "A TLS connection is served through its own session",
  "Whenever a TLS HttpServer reads or writes a connection it uses the session whose handshake was made on this connection since it was accepted and which was not freed, also when descriptor numbers are used again; it never goes through a missing session.",
  "all sequences of events, with any reuse of descriptor numbers", "histories with reuse of descriptor numbers", [S+"http/server/http_server.cpp: HttpServer::HandleAccept, HttpServer::HandleRead, HttpServer::HandleLeave, HttpServer::HandleError"])
p("C96", "TLS sessions are freed with their connection",
  "Every session of a TLS HttpServer is freed exactly once, at the latest when its connection ends.",
  "all sequences of events", "histories", [S+"http/server/http_server.cpp: HttpServer::HandleError, HttpServer::HandleLeave"])

p("C97", "A file holds what was written to it",
  "After File::Write returned success, and after any later calls that do not rewrite or remove this file, File::Read gives the written data followed by all data appended since; a Write or Append that fails changes nothing and returns an error; Read reports what it cannot read with an error code.",
  "all paths, data and sequences of calls, all answers of the system", "all data and histories; a full disk", [S+"utils/file.cpp: File::Write, File::Append, File::Read"])
p("C98", "LineCount is the number of lines",
  "LineCount gives the number of lines of a file (a last line without line feed counts), and 0 for a missing file.",
  "all contents", "all contents; huge files", [S+"utils/file.cpp: File::LineCount"])
p("C99", "Create makes an empty file and touches nothing else",
  "When File::Create returns success the file exists, it is empty if it did not exist before, and nothing that existed is changed; missing directories are made; failures are returned as an error.",
  "all paths and file trees, all answers of the system", "file trees, refusals of the system", [S+"utils/file.cpp: File::Create"])
p("C100", "Remove removes exactly the given file",
  "When File::Remove returns success the path is gone and everything else is as it was; failures are returned as an error.",
  "all paths and file trees, all answers of the system", "file trees, refusals of the system", [S+"utils/file.cpp: File::Remove"])
p("C101", "CanWrite says whether the file can be written",
  "File::CanWrite returns true exactly when File::Append to the path would be granted by the system.",
  "all paths, file trees and permissions", "file trees, permissions", [S+"utils/file.cpp: File::CanWrite"])
p("C102", "HttpClient releases what it opened",
  "By the end of a HttpClient's life every descriptor, TLS session and TLS context that it opened is released exactly once.",
  "all histories of Init, InitSSL, Close and destruction, all answers of the system and OpenSSL", "histories, failures", [S+"http/client/http_client.cpp: HttpClient::Init, HttpClient::InitSSL, HttpClient::Close", S+"http/client/http_client.hpp: ~HttpClient"])
p("C103", "No order of calls crashes the HttpClient",
  "No sequence of Init, InitSSL, Close and destruction goes through a null pointer.",
  "all histories", "histories", [S+"http/client/http_client.cpp"])
p("C104", "HttpClient connects to the given port, 80 or 443 if it is 0",
  "Init and InitSSL connect to the address and port that were given; when the port is 0 they use the default port (80, with TLS 443).",
  "all addresses and ports", "all inputs", [S+"http/client/http_client.cpp: HttpClient::Init, HttpClient::InitSSL"])
p("C105", "Requests on one connection are served in order, each like a request that arrives alone",
  "However many complete requests arrive back to back on one connection, the server answers them in order, one call per request, writes for each exactly what it writes when that request arrives alone, and leaves the bytes after them unread.",
  "all lists of complete requests below 2 GiB with ASCII paths, all following bytes, all handlers that return and do not read the stream themselves", "all inputs, all histories", [S+"http/server/http_server.cpp: HttpServer::HandleRead", S+"socket/socket.cpp: Socket::ReadUntil"])
p("C106", "A client and a server can talk for ever",
  "Any number of HttpClient::Send calls one after the other on one connection each return success, with the response that the handlers gave to this very request, and leave nothing over in either direction.",
  "all lists of requests and responses that can be put on the wire", "all inputs, all histories", [S+"http/client/http_client.cpp: HttpClient::Send", S+"http/server/http_server.cpp: HttpServer::HandleRead"])
p("C107", "Clients do not influence each other",
  "When the handlers share no state, what a client gets does not depend on what other clients send or on how their requests are interleaved.",
  "all sets of connections, all interleavings", "all schedules", [S+"http/server/http_server.cpp: HttpServer::HandleRead, HttpServer::StaticDir", S+"http/header/http_header.cpp: HttpHeader::SetContentType"])
p("C108", "A slow client does not hold up the others",
  "With I/O multiplexing, a client that has sent part of a request does not keep the server from serving the others.",
  "all unfinished requests", "schedules", [S+"http/server/http_server.cpp: HttpServer::HandleRead", S+"socket/socket.cpp: Socket::ReadUntil"])
p("C109", "The server closes the connection after the response exactly when the client asks for it",
  "After the response the server closes the connection when the request says Connection: close (or comes from an HTTP/1.0 client) and keeps it open otherwise.",
  "all complete requests", "all inputs", [S+"http/server/http_server.cpp: HttpServer::HandleRead"])
p("C110", "TLS changes nothing about how a request is served",
  "Whatever records the client's bytes arrive in, a TLS connection is served like a plain one: the handlers see the same request, and the same response is written.",
  "all byte streams with a complete body, all divisions into records", "all inputs, all fragmentations", [S+"http/server/http_server.cpp: HttpServer::HandleRead", S+"ssl/ssl_socket.cpp: SSLSocket::IORead", S+"socket/socket.cpp: Socket::ReadUntil, Socket::Read"])
p("C111", "Requests sent one after the other on a TLS connection are all answered",
  "Every complete request that has arrived on a TLS connection is answered without waiting for further bytes of the client.",
  "all lists of requests, all divisions into records", "all inputs, all fragmentations", [S+"http/server/http_server.cpp: HttpServer::HandleRead", S+"ssl/ssl_socket.cpp: SSLSocket::IORead", S+"server/io_multiplexing/epoll.cpp: Epoll::Loop"])
p("C112", "TLS changes nothing about what a client gets",
  "Whatever records the server's bytes arrive in, HttpClient::Send over TLS returns the same code and fills the response with the same status, headers and body as over a plain connection.",
  "all byte streams whose header block announces at most 2 GiB less one page (the most one receive on a plain socket gives), all divisions into records", "all inputs, all fragmentations", [S+"http/client/http_client.cpp: HttpClient::Send, HttpClient::InitSSL", S+"ssl/ssl_socket.cpp: SSLSocket::IORead"])

p("C113", "Run serves exactly when the server was started",
  "Run on an HttpServer that was never started, whose last start failed, or that was stopped since returns an error without any system call; on a server that was started and not stopped it enters the loop and hands every event to the HTTP handlers.",
  "all histories of Init, InitSSL, Run, Stop and the timeout setters in each mode, all answers of the system", "histories, failures", [S+"http/server/http_server.cpp: HttpServer::Init, HttpServer::Run, HttpServer::Stop", S+"server/tcp_server.cpp: TcpServer::Init, TcpServer::EventLoop"])
p("C114", "Init starts a plain server, InitSSL a TLS server",
  "After a successful Init new connections are served without TLS, after a successful InitSSL over TLS with the given context; a refused InitSSL (mixed mode, no context) changes nothing, so that no connection is ever served over TLS in mixed mode.",
  "all histories", "histories", [S+"http/server/http_server.cpp: HttpServer::Init, HttpServer::InitSSL, HttpServer::HandleAccept"])
p("C115", "The timeouts that were set hold for every new connection",
  "Every connection accepted after SetReadTimeout(sec, usec) (SetWriteTimeout) waits at most sec seconds and usec microseconds in a read (write), the TLS handshake included, and for ever if both are 0.",
  "all histories, all unsigned values", "all inputs, histories", [S+"http/server/http_server.cpp: HttpServer::SetReadTimeout, HttpServer::SetWriteTimeout, HttpServer::HandleAccept", S+"socket/socket.cpp: Socket::SetReadTimeout, Socket::SetWriteTimeout"])
p("C116", "No order of calls crashes the HttpServer",
  "No sequence of calls on an HttpServer goes through a null pointer or an empty callback.",
  "all histories in each mode, all answers of the system", "histories, failures", [S+"http/server/http_server.cpp: HttpServer::Init, HttpServer::Run, HttpServer::Stop", S+"server/tcp_server.cpp"])
p("C117", "Stop releases everything the HttpServer holds",
  "After Stop (or the destructor) every descriptor that the server opened or accepted is closed; a second Stop does nothing.",
  "all histories", "histories", [S+"http/server/http_server.cpp: HttpServer::Stop", S+"server/tcp_server.cpp: TcpServer::Clean"])

p("C118", "A timer fires every period and every firing is reported once",
  "After Init(sec, nsec) (or Reset) succeeded, reads of the timer report exactly the firings every sec seconds and nsec nanoseconds since then: each read reports those since the last one, at least one, at once if there are any and otherwise at the next one.",
  "all periods, all sequences of reads at any times", "all inputs, schedules", [S+"timer/timer.cpp: TimerSocket::Init, TimerSocket::Reset", S+"socket/socket.cpp: Socket::Read"])
p("C119", "Reading a timer gives the number of firings",
  "Read into a buffer or into a string delivers the number of firings; ReadPeek does so without taking them away.",
  "all numbers of firings", "all inputs", [S+"timer/timer.hpp: TimerSocket::IORead", S+"socket/socket.cpp: Socket::Read, Socket::ReadPeek"])
p("C120", "The results of a timer's Init and Reset tell what happened",
  "Init returns the descriptor, or -1 and leaves the object unusable and nothing open; Reset returns -1 unless it set the timer.",
  "all objects, arguments and answers of the system", "histories, failures", [S+"timer/timer.cpp: TimerSocket::Init, TimerSocket::Reset"])
p("C121", "Datagrams are read one by one as they were written",
  "Each ReadUdp returns exactly one datagram with its sender, in order of arrival, with all bytes that WriteUdp was given, when it is not longer than the length asked for.",
  "all sequences of datagrams of all senders, all lengths", "all inputs, histories", [S+"socket/socket.cpp: Socket::ReadUdp, Socket::WriteUdp"])
p("C122", "A peer that hangs up does not stop the program",
  "Whatever a peer does with its connection, closing it or breaking it off at any moment, the server (or client) goes on; at most that connection is closed.",
  "all moments of closing and resetting between the writes, all requests", "schedules, failures", [S+"socket/socket.hpp: Socket::IOWrite", S+"http/server/http_server.cpp: HttpServer::HandleRead", S+"http/client/http_client.cpp: HttpClient::Send"])
p("C123", "The log of a server shows one line per request and one per answer",
  "Each request is logged in a line with its method, path and connection and each answer in a line with its status; no client can make the log show a line that was not logged.",
  "all requests", "all inputs", [S+"http/server/http_server.cpp: HttpServer::HandleRead", S+"log/std_logger.hpp: StdLogger"])

p("C124", "A socket that was monitored successfully is watched",
  "On each platform, after MonitorSoc (AddSoc) reported success for a socket it is watched until it is removed; after RemoveSoc reported success it is not.",
  "all sequences of calls, any number of sockets", "histories", [S+"server/io_multiplexing/select.cpp: Select::MonitorSoc, Select::RemoveSoc", S+"server/io_multiplexing/kqueue.cpp: KQueue::MonitorSoc, KQueue::RemoveSoc"])
p("C125", "Every ready socket is reported in each round",
  "On each platform a watched socket that is ready is reported in the round, whatever the callbacks of the others do to their own sockets.",
  "all sets of sockets, all callbacks, all rounds", "schedules", [S+"server/io_multiplexing/select.cpp: Select::Loop", S+"server/io_multiplexing/kqueue.cpp: KQueue::Loop"])
p("C126", "A signal does not end the event loop",
  "A wait that is interrupted by a signal changes nothing: the loop goes on as if it had not happened.",
  "all runs with interruptions at any points", "schedules", [S+"server/io_multiplexing/epoll.cpp: Epoll::Loop", S+"server/io_multiplexing/kqueue.cpp: KQueue::Loop", S+"server/tcp_server.cpp: TcpServer::EventLoop"])
p("C127", "A socket is reported as left only when nothing is left to read",
  "On each platform the event for a ready socket is read when there is something to read, leave when the peer has closed and everything was read, and error otherwise.",
  "all states of sockets", "schedules", [S+"server/io_multiplexing/select.cpp: Select::Loop", S+"server/io_multiplexing/kqueue.cpp: KQueue::Loop"])

p("C128", "Every complete request is answered as if it were alone",
  "Any number of connections carry complete requests one after the other. Whatever the order in which their sockets are reported ready, each report answers the next request of that connection with exactly the bytes a connection carrying only that request would get, and after as many reports as requests none is left unanswered.",
  "all numbers of connections, all sequences of complete requests below 2 GiB with ASCII paths on them, all orders of reports, all handlers that return and do not read the stream themselves", "schedules, histories", [S+"http/server/http_server.cpp: HttpServer::HandleRead"])
p("C129", "Reading up to a delimiter can be resumed",
  "When ReadUntil fails before the delimiter has come (a receive timeout), calling it again with the same buffer goes on where it stopped: in the end the buffer and the rest of the stream are what one undisturbed call would give (and it throws if that one throws).",
  "all streams, all delimiters, all ways of cutting the stream into pieces", "schedules, all inputs", [S+"socket/socket.cpp: Socket::ReadUntil"])

p("C130", "The client understands the response of any HTTP/1.1 server",
  "However a server delimits the body of its response (Content-Length in any spelling, chunked coding, end of the connection, no body at all after HEAD), Send returns 0 with exactly this body and leaves what follows on the stream.",
  "all responses allowed by HTTP/1.1", "all inputs", [S+"http/client/http_client.cpp: HttpClient::Send", S+"http/resp/http_resp.cpp: HttpResp::Parse", S+"http/header/http_header.cpp: HttpHeader::GetContentLength"])
p("C131", "The server understands the request of any HTTP/1.1 client",
  "However a client delimits the body of its request (Content-Length in any spelling, chunked coding), the handlers get exactly this body, and no byte of it is ever taken for another request.",
  "all requests allowed by HTTP/1.1", "all inputs", [S+"http/server/http_server.cpp: HttpServer::HandleRead", S+"http/req/http_req.cpp: HttpReq::Parse", S+"http/header/http_header.cpp: HttpHeader::GetContentLength"])
p("C132", "Header names are the same in any case",
  "A header received or added under a name is found under every spelling of the name that differs only in case.",
  "all names and values", "all inputs", [S+"http/header/http_header.cpp: HttpHeader::Add, HttpHeader::Get, HttpHeader::GetHost"])
p("C133", "A handler that throws costs at most its own request",
  "When a handler throws an exception the server goes on; all other connections, and requests for other paths, are served as if it had not happened.",
  "all handlers, all requests, all orders of reports", "failures, schedules", [S+"http/server/http_server.cpp: HttpServer::HandleRead"])

p("C134", "The thread pool can be used from many threads without a data race",
  "Whatever calls threads and tasks make on one pool at the same time, no two threads ever access the same plain member with one of them writing it and nothing ordering them.",
  "all numbers of threads, all calls, all interleavings", "schedules", [S+"utils/threadpool.cpp: ThreadPool::AddTask, ThreadPool::Stop, ThreadPool::Init, ThreadPool::Resize, ThreadPool::Worker, ThreadPool::GetBusyAndTaskNum"])

p("C135", "The nodes of a trie are freed once, and used only before",
  "For every history of Set and Reset with keys of 7-bit characters, with Get and Search in between, and then the destruction of the trie: every node that was allocated is deleted exactly once, none is used after it was deleted, and Reset leaves only the new root.",
  "all histories of calls, all keys of 7-bit characters, all callbacks", "histories", [S+"utils/trie.cpp: Trie::~Trie, Trie::CleanMemory, Trie::Reset, Trie::ForkNode, Trie::SetNode, Trie::GetNode, Trie::SearchNode"])
p("C136", "A copy of a trie is a trie of its own",
  "A trie can be copied; changing, resetting or destroying the copy does not concern the original.",
  "all tries", "histories", [S+"utils/trie.hpp: Trie"])
p("C137", "A file logger does not race with its own worker",
  "A file logger that is used by one thread never accesses a plain variable (the text and time of a buffer, the path) that its own worker is accessing at the same time, one of the two writing.",
  "all histories of calls, all interleavings of the thread and the worker, all file system failures", "schedules, failures", [S+"log/file_logger.cpp: FileLogger::CheckFlush, FileLogger::FlushBuffer, FileLogger::Stop, FileLogger::Init"])

p("C138", "A server in several threads has no data race",
  "While an HttpServer runs in the multi-thread or the mixed mode, no two of its threads, nor one of them and a thread that calls "
  "Stop, access the same variable of the library at the same time with one of them writing it.",
  "all schedules of the thread in Run, the pool's workers and a thread that calls Stop; all connections, requests and handlers; "
  "plain and TLS; both modes; any logger and any table of content types",
  "A data race is undefined behaviour that shows only under some schedules, and often not even then.",
  [S + "http/server/http_server.cpp: HttpServer::HandleAccept, HandleRead, HandleLeave, Stop, HttpGroup::StaticDir",
   S + "server/tcp_server.cpp: TcpServer::EventLoop, Stop, WakeUp, Clean", S + "http/header/http_header.cpp: HttpHeader::ConvertToStr",
   S + "socket/address.cpp: Address::GetAddrLen"])

p("C139", "When Run has returned, no handler runs any more",
  "When HttpServer::Run has returned, no handler is running and none will run, so that the server and what the handlers use can be "
  "destroyed.",
  "all schedules; all ways in which Run returns; all connections and handlers",
  "Needs a handler that is still running at the moment at which the loop ends, under a schedule that a test cannot force.",
  [S + "server/tcp_server.cpp: TcpServer::EventLoop", S + "http/server/http_server.cpp: HttpServer::Run, Stop",
   S + "http/server/http_server.hpp: HttpServer::~HttpServer"])

p("C140", "Header fields and route parameters are maps",
  "After any sequence of the calls that fill in a header (Add, operator[], SetHost, SetContentType, SetContentLength, SetLongConnection, Clear), "
  "Get returns for every name the value stored last since the last Clear, the empty string if there is none, and the typed readers report the same "
  "value; likewise for AddParam, operator[], SetPath and Clear of a route with GetParam and GetPath.",
  "all sequences of calls, all names and values", "all histories of calls",
  [S + "http/header/http_header.cpp: HttpHeader::Add, Get, operator[], Clear, SetHost, SetContentType, SetLongConnection, SetContentLength, GetHost, GetContentType, GetContentLength",
   S + "http/req/route/http_route.cpp: HttpRoute::AddParam, GetParam, Clear", S + "http/req/route/http_route.hpp: HttpRoute::SetPath, GetPath, operator[]"])

p("C141", "Reading a header or a parameter changes nothing",
  "Looking up a name with operator[] of a header or a route, without assigning to it, gives the value and changes neither the object nor the text that is sent.",
  "all headers, routes and names, whether the name is there or not", "all states of the objects",
  [S + "http/header/http_header.cpp: HttpHeader::operator[], ToString", S + "http/req/route/http_route.hpp: HttpRoute::operator[]"])

p("C142", "A request made with GET or POST carries exactly what it was given",
  "After GET(url, params, headers), POST(url, body, headers) or POST(url, params, headers) the request has that method, HTTP/1.1, that path, "
  "those parameters (in the URL, or in the body as a form), those headers and that body, and nothing else; and this is what the receiver parses.",
  "all URLs, parameters, headers and bodies, all orders of the hash tables, all earlier uses of the request object", "all inputs and histories",
  [S + "http/req/http_req.cpp: HttpReq::GET, HttpReq::POST, HttpReq::Build, HttpReq::Parse, HttpReq::Clear"])

p("C143", "IsFile and IsDir tell what is there",
  "IsFile (and Exist) say whether there is a regular file under the path, IsDir whether there is a directory. After any calls of Write, Append, Create and "
  "Remove there is a file exactly if the last successful call for that path made one; no call removes a directory, and only Create makes one. Write and "
  "Append where the parent directory is missing fail and change nothing.",
  "all trees of files, all sequences of calls, all paths, all refusals and short writes of the system", "all histories and failures of the system",
  [S + "utils/file.cpp: File::Exist, File::IsFile, File::IsDir, File::Write, File::Append, File::Create, File::Remove"])

p("C144", "The command line is what the program gets",
  "In the programs built on the demo utilities, GetOption tells whether a name is given on the command line, with any number of dashes and with or without a value; "
  "GetVar gives the value of the first argument with the name (everything after the first =), and nothing if there is none.",
  "all command lines, all names", "all command lines",
  ["demo/util/argc_deal.cpp: ArgcDeal::ArgcDeal, GetOption, GetVar"])

p("C145", "A required option that is missing stops the program",
  "Run calls the program exactly when everything that was declared as required is given and neither help nor the version is asked for; otherwise it prints "
  "the version, or a usage text with a line for each declared option and variable.",
  "all command lines, all declarations in any order, all orders of the hash table", "all command lines and declarations",
  ["demo/util/argc_deal.cpp: ArgcDeal::SetOption, SetVar, Run, MsgPrint"])

p("C146", "A guarded program is started again exactly when the handler wants it",
  "Guard starts the program in a child, tells the exit code handler how the child ended, and starts the next child exactly if the handler says so (always, "
  "if there is none). The guardian itself never runs the program.",
  "all sequences of child ends, all answers of the handler, all failures of fork and waitpid", "all histories of crashes and failures",
  ["demo/util/process_ctrl.cpp: ProcessCtrl::Guard"])

p("C147", "A signal to the guardian ends its child, and nothing else",
  "When the guardian or a guarded program gets SIGINT, SIGQUIT or SIGTERM it ends; the guardian passes SIGINT on to the child that is running. No other process is signalled.",
  "all histories of starts and ends of children, all times of the signal", "all histories and times",
  ["demo/util/process_ctrl.cpp: ProcessCtrl::EndGuard, Guard"])

p("C148", "stop and reload reach the running server",
  "Calling the web server with -stop sends SIGINT to the server that was started before, and to no other process, and starts nothing; -reload does the same and then starts a server.",
  "all contents of the pid file and of the configuration, all command lines", "all file contents and histories",
  ["demo/web-server/main.cpp: _main, RunWithConfig", "demo/util/process_ctrl.cpp: ProcessCtrl::Kill"])

p("C149", "The web server does what its configuration says",
  "For every item of the configuration and the requests it is about, for the right host: a redirect is answered with 302 and the configured location, a static file with "
  "the contents of the file, a path below a static directory with the file of that name. The server listens on the configured address, with TLS if there is a certificate.",
  "all configurations, all requests, all file systems", "all configurations and requests",
  ["demo/web-server/main.cpp: RunWithConfig", "demo/web-server/config/config.hpp: Config", S + "http/server/http_server.cpp: HttpGroup::GET, StaticDir, StaticFile"])

p("C150", "In the modes with several threads every task keeps to its own connection",
  "Whatever a callback does with the socket it is given, and whatever the server does for it afterwards, reaches the connection the callback was called for, "
  "even if connections come and go in the meantime and the system gives their descriptor numbers to new connections.",
  "all schedules of the loop and the tasks, all numbers of connections, all reuses of descriptor numbers, all callbacks", "all schedules and histories of connections",
  [S + "server/tcp_server.cpp: TcpServer::EventLoop, HandleRead, HandleLeave", S + "http/server/http_server.cpp: HttpServer::HandleRead"])

p("C151", "A message that cannot be parsed or built says why",
  "Whenever Parse or Build of a request or a response returns an error, err_msg() afterwards is a text that names what is wrong with this message, whatever was parsed before "
  "with the same object; if nothing is wrong they succeed and leave err_msg() alone. The server's 400 answer carries that text.",
  "all texts, all states of the object including earlier failures", "all byte strings and all histories of the object",
  [S + "http/req/http_req.cpp: HttpReq::Parse, Build", S + "http/resp/http_resp.cpp: HttpResp::Parse, Build", S + "http/header/http_header.cpp: HttpHeader::Parse",
   S + "http/req/route/http_route.cpp: HttpRoute::Parse", S + "http/server/http_server.cpp: HttpServer::HandleRead"])

p("C152", "A server that cannot start, or a client that cannot connect or send, says why",
  "If Init of a server, or Init, InitSSL or Send of a client, returns an error, err_msg() afterwards names what went wrong first: the system call that failed with the "
  "system's reason, the invalid address, the failed handshake with OpenSSL's reason, or what is wrong with the request or with what the server answered. "
  "If they succeed err_msg() is left alone.",
  "all answers of the system, all servers and modes, all requests, all byte streams received", "all combinations of failing system calls and all streams",
  [S + "server/tcp_server.cpp: TcpServer::Init, CreateSocket, InitMode", S + "server/io_multiplexing/epoll.cpp: Epoll::Init, MonitorSoc",
   S + "http/server/http_server.cpp: HttpServer::Init", S + "http/client/http_client.cpp: HttpClient::Init, InitSSL, Send", S + "ssl/ssl_socket.cpp: SSLSocket::Connect"])

p("C153", "The hello-world program answers every request",
  "The server of the README answers every complete request on a connection with exactly one answer, in order: a request for / with the page, status 200 and the right length, "
  "any other path with the 404 page; nothing else is written, no connection is closed, and the library's own parser reads the page back.",
  "all requests below 2 GiB with ASCII paths (methods, headers, queries, bodies), all numbers of requests on a connection, all bytes behind them, all header orders", "all sequences of requests",
  ["README.en.md: quick start", "demo/use-lib-server/main.cpp: main", S + "http/server/http_server.cpp: HttpServer::HandleRead"])

p("C154", "The demo server answers as its source asks",
  "simple-http-server answers every complete request with exactly one answer: GET / with the index file, /hello with its text, /world with the redirect, GET of another path with the "
  "file of that name in the directory if there is one, everything else (and every path with ..) with the 404 page.",
  "all requests with ASCII paths, all file systems whose files can be read, all bytes behind the request", "all requests and file systems",
  ["demo/simple-http-server/main.cpp: main", S + "http/server/http_server.cpp: HttpGroup::GET, StaticFile, StaticDir"])

p("C155", "The mnist program answers as its source asks",
  "The mnist program answers a posted picture of 28 times 28 numbers with the prediction as JSON, any other posted body with 400 and a JSON message, and GET / with its page.",
  "all bodies, all answers of the JSON library and of the network, all file systems", "all bodies and requests",
  ["demo/mnist/main.cpp: main, GetMnistResult, MnistResp", S + "http/server/http_server.cpp: HttpGroup::POST, StaticFile"])

p("C156", "Address::Init understands exactly the numbers-and-dots notation",
  "Init stores every text in the notation of inet_addr (one to four numbers, decimal, octal or hexadecimal, the last one filling the bytes that are left, anything after white space ignored) "
  "as the address it stands for, and every other text as 255.255.255.255. It always succeeds. GetIP gives the address as a dotted quad, which Init reads back as the same address.",
  "all byte strings, all ports", "all texts", [S + "socket/address.cpp: Address::Init, Address::GetIP"])

p("C157", "A Send returns the answer to its own request",
  "Whatever happened before on the client (requests that could not be built, Sends that timed out, reconnections), a Send that returns success has given back the answer to its own request.",
  "all histories of Sends in time, Sends whose answer is late, and Close followed by Init; all servers whose answers can be put on the wire", "all histories",
  [S + "http/client/http_client.cpp: HttpClient::Send", S + "http/client/http_client.hpp: HttpClient::socket", S + "socket/socket.hpp: Socket::SetReadTimeout"])

p("C158", "A task may use its own pool, and fails alone",
  "A task may call every function of the pool that runs it and gets its answer, and an exception that leaves a task costs that task only.",
  "all interleavings of any number of threads, all tasks, with any calls from inside tasks, and exceptions at any time", "all interleavings",
  [S + "utils/threadpool.cpp: ThreadPool::Worker, ThreadPool::Stop, ThreadPool::Resize, ThreadPool::Init, ThreadPool::AddTask"])

p("C159", "Host tells the machine's name and address",
  "GetLocalName returns the machine's name. GetLocalIP returns an address of the machine as a dotted quad that Address::Init reads as this address, or the empty text, so that "
  "an Address made of it is an address of this machine or cannot be made.",
  "all machine names Linux allows, all answers of gethostname and gethostbyname", "all machines",
  [S + "utils/host.cpp: Host::GetLocalName, Host::GetLocalIP", S + "socket/address.cpp: Address::Init"])

p("C160", "A connection that cannot be accepted costs only itself",
  "When a connection cannot be accepted (the peer has given up, no descriptor is left) or the accepted descriptor cannot be watched, the callback is told, an accepted descriptor is closed, "
  "and everything else happens as if the connection had never been attempted; the event loop goes on.",
  "all servers, all histories of the event loop in every mode, all connections that fail at any moment", "all histories",
  [S + "server/tcp_server.cpp: TcpServer::HandleAccept, TcpServer::EventLoop", S + "socket/socket.cpp: Socket::Accept"])

p("C161", "The programs of the README work",
  "The README's HTTP client gets the greeting of the README's HTTP server, in whatever order either writes its header lines. The README's socket client writes its greeting, reads the answer and closes the connection.",
  "all orders of the header containers, all answers of the system calls", "all iteration orders and all system answers",
  ["README.md", S + "http/client/http_client.cpp: HttpClient::Send", S + "socket/socket.cpp: Socket::Write"])

p("C162", "A message costs no more memory than its sender has sent",
  "Whatever bytes a peer sends, the block of memory the library asks for to hold the body of a message is no larger than what that peer has sent, so that no peer can make a server (or a client) ask for memory by announcing it, and a program whose memory is limited is not ended by a message it has not received.",
  "all byte streams, handlers, requests, hash orders and amounts of free memory",
  "a test machine has the memory; the sizes that end the program depend on what is free at that moment",
  [S + "socket/socket.cpp: Socket::Read", S + "http/server/http_server.cpp: HttpServer::HandleRead", S + "http/client/http_client.cpp: HttpClient::Send", S + "http/header/http_header.cpp: HttpHeader::GetContentLength"])

p("C163", "A line on the console is not torn",
  "Every line that a program logs to the console is shown whole: its tag, its message and the end of the line follow one another, whatever other threads log at the same time.",
  "all messages and levels, any number of threads, all interleavings of what they write",
  "whether two threads write at the same time depends on the schedule",
  [S + "log/std_logger.hpp: StdLogger"])

p("C164", "A line in a log file carries the time of its own call",
  "The time stamp that FileLogger writes before a message is the time at which this message was logged, also when other threads log to other files at the same moment.",
  "all clocks and time zones, any number of threads, all interleavings of the calls",
  "the stamps differ only if two calls overlap and the second changes between them",
  [S + "log/file_logger.cpp: FileLogger::GetNowTime"])

p("C165", "What a task captured is released once it has run",
  "When a task has returned, the pool destroys what the task had captured, once and soon; it never destroys it earlier, and the destructor may call the pool.",
  "all interleavings of any number of threads and workers, all tasks, all destructors that call the pool or not",
  "when a capture is destroyed depends on what the pool does next; the blocked destructor needs a second task",
  [S + "utils/threadpool.cpp: ThreadPool::Worker", S + "utils/threadpool.hpp: ThreadPool"])

p("C166", "A handler may register further handlers",
  "A handler may call RegisterHandler while it serves a request: the request is served by the handlers that were registered before it, and the new ones serve the requests after it.",
  "all routing tables, handlers, paths and registrations",
  "which registrations disturb the search depends on the paths that are registered already",
  [S + "http/server/http_server.cpp: HttpGroup::RegisterHandler, HttpServer::HandleRead", S + "utils/trie.cpp: Trie::SearchNode, Trie::ForkNode"])

p("C167", "The settings of an event loop hold for its next wait",
  "After set_max_event_num(n) each wait of the event loop reports up to n events, after set_wait_timeout(t) it lasts t milliseconds at most (for ever if t is negative), whenever and however often they are called.",
  "all histories of settings and waits, all numbers, all three platforms",
  "a wait that lasts for ever is not seen to end; one machine has one platform",
  [S + "server/io_multiplexing/io_multiplexing_base.hpp: set_max_event_num, set_wait_timeout", S + "server/io_multiplexing/epoll.cpp: Epoll::Loop", S + "server/io_multiplexing/kqueue.cpp: KQueue::Loop", S + "server/io_multiplexing/select.cpp: Select::Loop", S + "server/io_multiplexing/io_multiplexing_factory.cpp: CreateDefault"])

p("C168", "A bound on the events of a wait starves no socket",
  "With set_max_event_num(n), n positive, a socket that is ready while i others are before it is reported by one of the next i / n + 1 waits, even if the others are always ready again.",
  "all numbers of ready sockets, all bounds, all later events",
  "starvation is a property of infinite runs",
  [S + "server/io_multiplexing/epoll.cpp: Epoll::Loop", S + "server/io_multiplexing/io_multiplexing_base.hpp: set_max_event_num"])

p("C169", "The last helper that was called decides the response",
  "If several handlers of a request call helpers of the response (NotFound, Redirect, Success, Json, Text, ...), the response that is sent is the one of the last call, as if the others had not been made.",
  "all sequences of calls of the helpers, of Clear and of assignments to header fields",
  "what an earlier call leaves behind shows only in some combinations",
  [S + "http/resp/http_resp.cpp: HttpResp::NotFound, HttpResp::Redirect, HttpResp::Success, HttpResp::Clear", S + "http/resp/http_resp.hpp: HttpResp"])

p("C170", "Copies of a socket reach one connection and close it once",
  "Socket objects are copied freely: the event callback gets a copy, Accept returns one by value. A call through any socket variable or copy of it makes its system calls on the connection that variable was made for and on no other, even when descriptor numbers are used again, and every descriptor the variables were given is closed exactly once.",
  "All numbers of variables, all histories of member calls, copies, accepts and descriptors opened elsewhere in the process, and all answers of the system.",
  "Whether a call reaches a connection opened later under the same number depends on the whole history of copies, closes and openings.",
  [S + "socket/socket.hpp: Socket", S + "socket/socket.cpp: Socket::Init, Socket::Accept, Socket::Close"])

p("C171", "Socket timeouts mean what was asked on every system",
  "After SetReadTimeout(sec, usec) a read that gets no data returns an error after sec seconds and usec microseconds, after SetWriteTimeout a write does, (0, 0) waits for ever, and the other direction is left alone, on Linux, macOS and Windows alike.",
  "All systems, all values of the two arguments, and all histories of the two calls.",
  "A test runs on one system with a few values; the claim is about every value and every system the library is built for.",
  [S + "socket/socket.cpp: Socket::SetReadTimeout, Socket::SetWriteTimeout, Socket::SetSockOpt"])

p("C172", "Values of several types in one trie",
  "In a trie that holds values of several types, Get<T>(key) returns the value the last Set stored there if that value has type T, throws std::bad_any_cast if it has another type, and returns null if nothing is stored under the key; Search<T> calls its callback with the values stored under the prefixes of the word, shortest first, and throws at the first one of another type.",
  "All histories of Set and Reset with values of any types and ASCII keys, all ASCII keys and words, all types asked for and callbacks.",
  "The type test is applied to whatever node the lookup ends at, so the result depends on all the keys stored and the types of their values.",
  [S + "utils/trie.hpp: Trie::Get, Trie::Set, Trie::Search"])

p("C173", "The log shows when a connection came and when it went",
  "Each connection that an HttpServer takes in has exactly one message in the log that says it was accepted, the first about it, and exactly one that says it was left, the last about it; both name the peer's address and the descriptor, whatever the client sends in between.",
  "All servers, connections, requests, answers of the system and ways in which a connection ends, in the I/O multiplexing and the multi-thread mode.",
  "A connection can end in many ways at any point of any request, and the client chooses part of what is logged.",
  [S + "http/server/http_server.cpp: HttpServer::HandleAccept, HandleLeave, HandleError, HandleRead", S + "server/tcp_server.cpp: TcpServer::HandleAccept, HandleLeave, HandleError, EventLoop"])

p("C174", "A signal during a read changes nothing",
  "When the program handles a signal while a request or a response is being read, the request is served, or the response delivered, as if the signal had not come.",
  "All requests and responses, and all moments at which signals come, with handlers that restart interrupted calls and handlers that do not.",
  "A signal can come at any moment of any read; a test does not hit the moment between two bytes of a body.",
  [S + "socket/socket.hpp: Socket::IORead", S + "socket/socket.cpp: Socket::ReadUntil, Socket::Read", S + "http/server/http_server.cpp: HttpServer::HandleRead", S + "http/client/http_client.cpp: HttpClient::Send"])

p("C175", "A call returns 0 on success and -1 on failure",
  "Every function of the API whose documentation says that it returns 0 on success and -1 on failure (parsing and building messages, files, addresses, sockets, servers, clients, TLS contexts) returns one of these two values.",
  "all objects, texts, file systems, system answers and histories of events",
  "A test compares the result of the failures it provokes with what the code returns today; that no input, state or system answer gives another value is a statement about all of them.",
  [S + "utils/const.hpp: RC", S + "http/req/http_req.hpp: HttpReq::Parse, Build", S + "http/header/http_header.hpp: HttpHeader::Parse", S + "http/client/http_client.hpp: HttpClient::Init, Send", S + "utils/file.hpp: File", S + "server/tcp_server.hpp: TcpServer::Init, EventLoop, WakeUp", S + "http/server/http_server.hpp: HttpServer::Init, InitSSL, Run", S + "ssl/ssl_context.hpp: SSLContext", S + "socket/socket.hpp: Socket", S + "socket/address.hpp: Address"])

p("C176", "What a running server says about a failure is about that failure",
  "A callback that is called with an error event, and a caller whose EventLoop, AddSoc, Stop or WakeUp returned an error, finds in err_msg() the reason of this failure, not nothing and not the reason of an earlier one.",
  "all servers, sequences of waits and reports, system answers and texts, actions of the callback and previous messages",
  "A test that provokes one failure sees a message; whether it is the message of this failure depends on everything that failed before in the life of the server.",
  [S + "server/tcp_server.cpp: TcpServer::HandleAccept, HandleError, EventLoop, AddSoc, Stop, WakeUp", S + "server/io_multiplexing/epoll.cpp: Epoll::Loop, MonitorSoc", S + "server/tcp_server.hpp: TcpServer::err_msg"])

p("C177", "Clients that stay connected keep neither other clients nor Run waiting",
  "A client that connects to a server in several threads is served although other clients are connected and send nothing, and after Stop the call of Run returns although clients are still connected.",
  "all numbers of workers, with and without TLS, all schedules of the loop, the workers and the thread that calls Stop, all times at which clients connect, send and leave",
  "It depends on how long clients stay connected, which has no bound: a test with a few clients that leave again sees every one of them served.",
  [S + "server/tcp_server.cpp: TcpServer::EventLoop, HandleAccept, Stop", S + "http/server/http_server.cpp: HttpServer::HandleAccept, HandleRead, Run, Stop", S + "utils/threadpool.cpp: ThreadPool::Worker, Stop"])

p("C178", "A call may be given a text of the object itself",
  "A call that takes a text by reference (Parse, Build, POST, Redirect, Text, BadRequest, ...) does the same with a text of the object itself, as body(), header()[key] and route()[key] hand it out, as with a copy of that text.",
  "all requests, responses, headers and routes, all of their texts, all orders of the hash maps",
  "The result depends on the order in which a function stores and looks, for every text; a test passes a string of its own.",
  [S + "http/req/http_req.cpp: HttpReq::Parse, Build, POST", S + "http/resp/http_resp.cpp: HttpResp::Parse, Build, Redirect, BadRequest, InternalServerError", S + "http/req/route/http_route.cpp: HttpRoute::Parse, operator[]", S + "http/header/http_header.cpp: HttpHeader::Parse, operator[]"])

p("C179", "A server tells of every firing of a timer that it watches, once",
  "When a timer was given to a server with AddSoc, the server's callback is called for its firings: never without a firing that was not yet read, no firing is lost, and reading the number of firings does not wait.",
  "all periods, all times at which waits return and callbacks read, both trigger types, all numbers of rounds",
  "The number of calls depends on when the loop and the callbacks run relative to the firings, for ever; the project's test counts calls for ten milliseconds and accepts 91 to 109.",
  [S + "server/tcp_server.cpp: TcpServer::AddSoc, HandleRead, EventLoop", S + "server/io_multiplexing/epoll.cpp: Epoll::MonitorSoc, Loop", S + "timer/timer.cpp: TimerSocket::Init, Reset", S + "timer/timer.hpp: TimerSocket::IORead", S + "../../README.md: the timer server"])

p("C180", "A server that reads in pieces gets all that was sent",
  "A TcpServer callback that calls Read(buf, len) at every read event gets, piece by piece, exactly the bytes that the client sent, in order, for every positive len.",
  "all texts, all cuts into sends and pieces, all positive lengths, all orders of sends and rounds, both trigger types",
  "What is lost depends on how the sends, the waits of the loop and the lengths of the reads fall together; a test sends one short text.",
  [S + "server/tcp_server.cpp: TcpServer::HandleRead, HandleLeave", S + "server/io_multiplexing/epoll.cpp: Epoll::MonitorSoc, Loop", S + "socket/socket.cpp: Socket::Read", S + "../../README.md: the TCP server"])

p("C181", "A static handler logs what it did, once",
  "Each call of a handler made by StaticDir or StaticFile that returns gives the logger exactly one message, which names the file or path: Info exactly if the response is the file, a warning exactly if there is no such file or the path is refused, an error exactly if the file cannot be opened. A call that throws logs nothing, and logging does not change the response.",
  "all file systems, mount points, directories, files, requests and contexts",
  "The message has to agree with the response on every path through the handler and for every answer of the file system; the tests do not look at the log.",
  [S + "http/server/http_server.cpp: HttpGroup::StaticDir, StaticFile", S + "utils/file.cpp: File::Exist, Read, Suffix", S + "log/logger.hpp: Logger::Info, Warn, Error"])

p("C182", "A file that other programs change meanwhile is as it was at one time",
  "While Create, Remove or a static handler works, other programs may change the file system. The call still has an outcome that it could have had if the file system had stood still at one of the times during the call: a static handler answers with the file, or that there is none, and does not throw; Create does not empty a file; Remove does not remove a directory and reports success if the file is gone.",
  "all file systems at each of the system calls, all paths, everything other programs do between two system calls",
  "The outcome depends on what other processes do between two system calls; a test has the file system to itself.",
  [S + "utils/file.cpp: File::Exist, Create, Remove, Read", S + "http/server/http_server.cpp: HttpGroup::StaticDir, StaticFile", S + "log/file_logger.cpp: FileLogger::Init"])

p("C183", "A symbolic link stands for what it points to",
  "Every function of File, given a path with symbolic links in it, does what it does for the place the path leads to, and Remove removes the link itself and nothing else; a function that cannot reach the place reports it by its result. The static handlers serve what a link leads to.",
  "all trees of files, directories, links and closed directories, all paths, all data and answers of the system",
  "Links can be chained, can lead through other links, in circles or nowhere; the tests have no links.",
  [S + "utils/file.cpp: File::Read, Write, Append, Exist, IsFile, IsDir, Create, Remove, CanWrite, LineCount", S + "log/file_logger.cpp: FileLogger::Init", S + "http/server/http_server.cpp: HttpGroup::StaticFile"])

p("C184", "Requests leave nothing behind",
  "However long a server runs and whatever its clients send, the registry of content types that all servers of the program share keeps every entry it has, gets at most one more (an empty one for the empty suffix), and static files with a suffix are answered as on the first day, as long as the program's own handlers leave the registry alone.",
  "all servers that registering calls make, all sequences of reports on any number of connections, all file systems meanwhile, all bytes received",
  "A request can only be seen to leave something behind when every history of requests is considered; the tests send one or two.",
  [S + "http/server/http_server.cpp: HttpServer::HandleRead, HttpGroup::StaticDir, HttpGroup::StaticFile", S + "http/header/http_header.cpp: ContentTypeUtil::ConvertToStr, ConvertFileType"])

p("C185", "A pool that is refused threads works with those it has",
  "When the system has no more threads, Init and the constructor of ThreadPool let the caller know; the pool goes on with the threads it got (no accepted task is lost or run twice, a free worker takes the next task, Stop and the destructor wait for them), it can be given the missing threads later, and it accepts no task that will never be run.",
  "all numbers asked for and refused, all calls by any number of threads, all schedules",
  "The system refuses a thread at an arbitrary point of the loop, while the threads already started run; no test can make it do so.",
  [S + "utils/threadpool.cpp: ThreadPool::Init, Resize, AddTask, Stop, Worker", S + "utils/threadpool.hpp: ThreadPool::ThreadPool"])

p("C186", "The times in a log file sort as the clock",
  "Of two lines that a FileLogger writes at different seconds, the one logged later carries the time that sorts later as text; equal times mean the same second; and the times in the file never go back.",
  "all times of a year of four digits, all time zones, all messages and levels, all histories of a logger and schedules of its thread",
  "The format has to be right at the ends of months, years, leap days and changes of the clocks; a test sees only the time at which it runs.",
  [S + "log/file_logger.cpp: FileLogger::GetNowTime, Debug, Info, Warn, Error, Fatal"])

p("C187", "An Init of a FileLogger that fails leaves the logger as it was",
  "If Init fails, be it because of its file or for lack of memory, the logger goes on as before: one that was never initialised ignores messages and can be initialised later, a running one keeps writing to its file, and Stop and the destructor return.",
  "all files and what is at their names, all histories of failed calls, all messages, all schedules of the logger's thread, all points at which memory runs out",
  "The harm shows only later, in a flush or in Stop, and depends on what was still in the buffers; memory can run out at any buffer.",
  [S + "log/file_logger.cpp: FileLogger::Init, Stop, CheckFlush, FlushBuffer", S + "utils/file.cpp: File::Create, CanWrite, Append"])

p("C188", "A server that is refused threads can be put away",
  "If the system refuses a thread while Init starts a server in multi-thread or mixed mode, Init reports it, and afterwards the server can be stopped, cleaned, destroyed or initialised again without a crash, and nothing it opened stays open.",
  "all servers that hold no multiplexer, all addresses, all answers of the system to the calls of Init, all descriptors open elsewhere in the process",
  "The refusal depends on the limits of the machine at the moment Init is called; a test would have to make pthread_create fail.",
  [S + "server/tcp_server.cpp: TcpServer::Init, InitMode, Stop, Clean, ~TcpServer", S + "utils/threadpool.cpp: ThreadPool::Init"])

p("C189", "A TLS client knows who is at the other end",
  "When an HTTPS client's connection succeeds, the server at the other end is the one that was asked for: it shows a certificate that the machine has reason to believe, for the name that was asked for, and holds its key.",
  "all peers with any certificates, all sets of trusted certificates, all histories of calls on a TLS context, all answers of the system",
  "A test connects to a server that is what it says it is; the property is about every other one.",
  [S + "ssl/ssl_context.cpp: SSLContext::Init, InitCli, InitSvr, InitSvrFile, CreateSSLSocket", S + "ssl/ssl_socket.cpp: SSLSocket::Connect", S + "http/client/http_client.cpp: HttpClient::InitSSL"])

p("C190", "A log line reaches the file within the flush interval",
  "A line that was logged to a file logger is in the file when the flush interval (set_flush_interval_sec) is over, as soon as the logger's worker gets to run.",
  "all numbers and sizes of buffers, all intervals, all histories of logging calls and turns of the worker, all times at which they happen",
  "Whether a line is written depends on what is logged afterwards and when; a test checks one history.",
  [S + "log/file_logger.cpp: FileLogger::CheckFlush, FlushBuffer, Init, Debug, Info, Warn, Error, Fatal", S + "log/file_logger.hpp: FileLogger::set_flush_interval_sec"])

p("C191", "A crash leaves a file as it was before or as it was to be",
  "If the program dies during File::Write, Append, Create or Remove, the file holds what it held before the call or what it would hold after it; no other file has changed, and calling the function again after a restart gives what it would have given.",
  "all file trees, paths, contents, ways the stream cuts the data into writes, and moments at which the program dies",
  "The moment of the death lies between two system calls of one library call; a test cannot choose it.",
  [S + "utils/file.cpp: File::Write, File::Append, File::Create, File::Remove"])

p("C192", "The exit status of the web server says whether it did its work",
  "The web server that is shipped exits with status 0 exactly if it did what it was asked to do: print the help or the version, signal the running server with -stop, or serve until it is stopped.",
  "all command lines, file systems, pid files, configurations and answers of the parser and the network",
  "There are many ways to fail, and a script that starts the server relies on all of them; a test tries one.",
  ["demo/web-server/main.cpp: main, _main, RunWithConfig", "demo/util/argc_deal.cpp: ArgcDeal::Run"])

p("C193", "A crash costs the log only its last lines",
  "If the program dies, the log file holds all lines that were logged, in their order, up to some point; what is missing are the last lines, no more than a buffer takes, and no line whose logging call has returned.",
  "all numbers and sizes of buffers, intervals, histories of logging calls and turns of the worker, and moments at which the program dies",
  "A crash comes at any moment of the two threads; a test can only stop the program where it likes.",
  [S + "log/file_logger.cpp: FileLogger::CheckFlush, FlushBuffer, Debug, Info, Warn, Error, Fatal"])

p("C194", "A trie survives running out of memory",
  "If a Set on a trie runs out of memory, it throws and the trie is as before: every stored key is found with its value, Search finds what it found before, and later calls work as ever. If a Reset runs out of memory, the trie can still be used or destroyed.",
  "all histories of Set and Reset with keys of 7-bit characters, all places of a call at which an allocation may fail",
  "An allocation may fail at any of the places of any call; a test cannot make each of them fail in each state of the tree.",
  [S + "utils/trie.cpp: Trie::SetNode, ForkNode, Reset, CleanMemory, GetNode, SearchNode", S + "utils/trie.hpp: Trie::Set"])

p("C195", "A logger that several MultiLoggers share gets each message once",
  "Loggers are shared objects: one may be given to several MultiLoggers, or several times to one. A message logged through a MultiLogger reaches every logger that it contains, directly or through other MultiLoggers, exactly once, in the order in which they were given.",
  "all graphs of loggers (sharing and containing themselves included), levels and messages, all stack sizes",
  "the shapes that loggers can be put together in are unlimited",
  [S + "log/multi_logger.cpp: MultiLogger::Init, Debug, Info, Warn, Error, Fatal", S + "log/multi_logger.hpp: loggers_"])

p("C196", "A route that cannot be registered leaves the others alone",
  "If the registration of a route runs out of memory, it throws, and every request is answered as before; a registration that returns has its full effect, and later registrations do what they do without the failed one.",
  "all histories of registrations with routes of 7-bit characters, all places of a call at which an allocation may fail, all requests",
  "An allocation may fail at any of the places of any registration after any history; a test cannot make each of them fail.",
  [S + "http/server/http_server.cpp: HttpGroup::RegisterHandler", S + "utils/trie.cpp: Trie::SetNode, ForkNode"])

p("C197", "A logging call that runs out of memory costs no other line",
  "If a call of a file logger throws because memory runs out, the logger goes on as before: when Stop or the destructor has returned, the file holds every line that was logged, each exactly once, the line of the call that threw at most once.",
  "all executions of a file logger, all schedules of its worker, all clocks, all places of a logging call at which an allocation may fail",
  "An allocation may fail at each of the places of each call, in each state of the buffers and of the worker; a test cannot make them all fail.",
  [S + "log/file_logger.cpp: FileLogger::Debug, Info, Warn, Error, Fatal, CheckFlush, Stop, FlushBuffer"])

p("C198", "A logger that nobody uses any more is closed",
  "When the program has given up its pointers to a MultiLogger and its loggers, every one of them is destroyed, exactly once, so that a file logger among them writes what it still holds.",
  "all sets of loggers that hold each other in whatever way, all sets of pointers that the program gives up, in every order",
  "The loggers may hold each other in any way; a test has one arrangement.",
  [S + "log/multi_logger.hpp: MultiLogger::loggers_", S + "log/multi_logger.cpp: MultiLogger::Init"])

p("C199", "A pool whose program runs out of memory keeps the tasks it has",
  "If AddTask throws because memory runs out, the pool has not accepted the task and is otherwise as before: its mutex is free, every task for which AddTask returned 0 is still queued, in the hands of exactly one worker or finished, free workers go on to take tasks, Stop waits for what is running, and the program is not terminated.",
  "all executions of a pool with any number of threads calling it, all schedules, all sets of calls and of workers whose allocation fails",
  "Any of the calls may fail at any point of any interleaving with the workers; a test cannot make each of them fail under each schedule.",
  [S + "utils/threadpool.cpp: ThreadPool::AddTask, ThreadPool::Worker, ThreadPool::Stop"])

if __name__ == "__main__":
    out = os.path.join(os.path.dirname(os.path.abspath(__file__)), "..", "properties.jsonl")
    ids = [x["id"] for x in P]
    assert len(set(ids)) == len(ids)
    with open(out, "w") as f:
        for x in P:
            f.write(json.dumps(x, ensure_ascii=False) + "\n")
    print(len(P), "properties")
