{"id": "C01", "title": "Split cuts a string exactly at the delimiter", "statement": "For a non-empty delimiter, StringUtil::Split appends a list of pieces such that re-joining them with the delimiter gives back the original string, no piece contains the delimiter, and every cut is made at the leftmost possible place; with keep_delimiter the plain concatenation of the pieces is the original string. Pieces already in the output vector are kept in front.", "quantifier": "all byte strings, all non-empty delimiters, all initial contents of the output vector", "why_tests_cant": "infinitely many strings and self-overlapping delimiters", "anchors": ["src/cppnet/utils/string.cpp: StringUtil::Split"]}
{"id": "C02", "title": "Split terminates", "statement": "StringUtil::Split returns for every pair of strings.", "quantifier": "all byte strings and all delimiters, the empty one included", "why_tests_cant": "non-termination cannot be observed by a finite run, and the loop's progress argument has to hold for every input", "anchors": ["src/cppnet/utils/string.cpp: StringUtil::Split"]}
{"id": "C03", "title": "URL decoding inverts URL encoding", "statement": "UrlDecode(UrlEncode(s)) == s for every byte string s.", "quantifier": "all byte strings (every byte value, every length)", "why_tests_cant": "256^n inputs", "anchors": ["src/cppnet/utils/string.cpp: StringUtil::UrlEncode, StringUtil::UrlDecode"]}
{"id": "C04", "title": "URL encoding emits only safe bytes", "statement": "Every byte UrlEncode emits is an ASCII letter or digit, one of - _ . ~ / = ? & +, or belongs to a complete %XX escape with upper-case hex digits; in particular the result never contains a space, CR, LF, NUL or a byte >= 0x80, and it is at most three times as long as the input.", "quantifier": "all byte strings", "why_tests_cant": "has to hold for each byte at each position", "anchors": ["src/cppnet/utils/string.cpp: StringUtil::UrlEncode"]}
{"id": "C05", "title": "URL decoding follows the percent-encoding rules", "statement": "For every input whose percent signs all start a complete two-hex-digit escape (either letter case) UrlDecode returns the string with each escape replaced by the byte it denotes, each + by a space and every other byte unchanged; every other input (a truncated or non-hex escape) is rejected with the empty string. UrlDecode never reads outside the string.", "quantifier": "all byte strings, well-formed or not", "why_tests_cant": "unbounded inputs; malformed tails at every offset", "anchors": ["src/cppnet/utils/string.cpp: StringUtil::UrlDecode"]}
{"id": "C06", "title": "WildCardMatch implements glob matching", "statement": "WildCardMatch(pattern, s) is true exactly when s can be obtained from pattern by replacing every * by some (possibly empty) byte string and every ? by some single byte.", "quantifier": "all patterns and all strings below 2^31 - 1 bytes", "why_tests_cant": "unbounded patterns and strings; the table is filled for every pair of positions", "anchors": ["src/cppnet/utils/string.cpp: StringUtil::WildCardMatch", "src/cppnet/http/server/filter/http_host_filter.hpp: HttpHostFilter::IsMatchFilter"]}
{"id": "C07", "title": "File::Suffix returns the text after the last dot of the last path component", "statement": "File::Suffix(path) is the part of the final path component after its last dot, or empty when that component has no dot; the result never contains a dot or a slash and never throws.", "quantifier": "all path strings", "why_tests_cant": "all placements of dots and slashes", "anchors": ["src/cppnet/utils/file.cpp: File::Suffix"]}
{"id": "C08", "title": "Trie::Search reports exactly the stored prefixes", "statement": "After any sequence of Set and Reset calls, Search(key) calls the callback once for each stored key that is a prefix of key, in order of increasing length, with the value most recently stored for it, passing is_last = true only for key itself, and stops right after the first call that returns false.", "quantifier": "all histories of Set/Reset with ASCII keys, all search keys, all callbacks", "why_tests_cant": "all insertion orders and all shapes of the compressed tree", "anchors": ["src/cppnet/utils/trie.cpp: Trie::SearchNode, Trie::SetNode, Trie::ForkNode", "src/cppnet/utils/trie.hpp: Trie::Search"]}
{"id": "C09", "title": "Trie::Get returns the latest value stored for a key", "statement": "After any history in which key k was Set and not erased by Reset, Get(k) returns the value of the last Set(k), whatever other keys were stored before or after it.", "quantifier": "all histories of Set/Reset with ASCII keys", "why_tests_cant": "all insertion orders; node splitting at every position", "anchors": ["src/cppnet/utils/trie.cpp: Trie::GetNode, Trie::SetNode"]}
{"id": "C10", "title": "Trie::Get and Check find nothing for a key that was never stored", "statement": "Get(k) returns nullptr and Check(k) returns false whenever k was never Set since the last Reset.", "quantifier": "all histories and all keys", "why_tests_cant": "all histories", "anchors": ["src/cppnet/utils/trie.cpp: Trie::GetNode, Trie::Check"]}
{"id": "C11", "title": "Trie operations are memory safe for every key", "statement": "Set, Get, Check and Search never index outside the child table and always terminate, whatever bytes the key holds.", "quantifier": "all histories and all keys, including bytes >= 0x80", "why_tests_cant": "undefined behaviour may stay silent in a test run", "anchors": ["src/cppnet/utils/trie.cpp", "src/cppnet/utils/trie.hpp: Trie::Node"]}
{"id": "C12", "title": "Trie contents do not depend on insertion order", "statement": "Two histories that store the same final value for the same keys are indistinguishable by Get, Check and Search; Reset makes the trie indistinguishable from a new one.", "quantifier": "all pairs of histories with equal effect", "why_tests_cant": "all permutations of insertions", "anchors": ["src/cppnet/utils/trie.cpp"]}
{"id": "C13", "title": "Method, version and status conversions are mutually inverse", "statement": "ConvertToMethod/ConvertToVersion/ConvertToCode invert ConvertToStr (and the numeric status value) on every known enumerator, map every other string or integer to UNKNOWN, and accept exactly one spelling per enumerator.", "quantifier": "all enumerators, all strings, all ints", "why_tests_cant": "all strings and all ints", "anchors": ["src/cppnet/http/req/method/http_method.cpp", "src/cppnet/http/version/http_version.cpp", "src/cppnet/http/resp/status_code/http_status_code.cpp"]}
{"id": "C14", "title": "Content types convert back and forth", "statement": "ConvertToContentType(ConvertToStr(t)) == t for every built-in content type and the content type stored by SetContentType(t) is the one GetContentType reports; a file type registered with SetCustomContentType is reported as custom with exactly the registered string unless it is one of the built-in file types.", "quantifier": "all content types, all file-type strings, all registration histories", "why_tests_cant": "all strings and registration histories", "anchors": ["src/cppnet/http/header/http_header.cpp: ConvertToContentType, ConvertFileType, ConvertToStr, SetCustomContentType"]}
{"id": "C15", "title": "Header text round-trips", "statement": "Parsing the text ToString produced (without its final blank line) into an empty header gives back every key and value, in whatever order the hash map enumerates them, for every header whose keys contain no colon and whose keys and values contain no CR or LF and no value is empty or starts with a space.", "quantifier": "all such header maps, all hash-map iteration orders", "why_tests_cant": "iteration order is unspecified; unboundedly many maps", "anchors": ["src/cppnet/http/header/http_header.cpp: HttpHeader::Parse, HttpHeader::ToString"]}
{"id": "C16", "title": "Header parsing splits key and value at the first colon and the last duplicate wins", "statement": "If every CRLF-separated line of the text has a colon, Parse succeeds and Get(k) is the value of the last line whose text before its first colon is k, with leading spaces removed (lines whose value is blank are the subject of C17); if some line has no colon Parse fails with kLogicErr and exactly the lines before it have been stored.", "quantifier": "all header texts, all previous header contents", "why_tests_cant": "all texts", "anchors": ["src/cppnet/http/header/http_header.cpp: HttpHeader::Parse, HttpHeader::Add, HttpHeader::Get"]}
{"id": "C17", "title": "An empty header value is parsed as empty", "statement": "A header line with nothing but spaces after its colon is stored with the empty value.", "quantifier": "all keys, all numbers of spaces", "why_tests_cant": "rests on the wrap-around of npos arithmetic for every line", "anchors": ["src/cppnet/http/header/http_header.cpp: HttpHeader::Parse"]}
{"id": "C18", "title": "Content-Length is stored and read back exactly", "statement": "After SetContentLength(n), GetContentLength() == n for every int n; Build announces the exact number of body bytes for every body.", "quantifier": "all 2^32 ints, all bodies", "why_tests_cant": "all values and body sizes", "anchors": ["src/cppnet/http/header/http_header.cpp: SetContentLength, GetContentLength", "src/cppnet/http/resp/http_resp.cpp: HttpResp::Build"]}
{"id": "C19", "title": "GetContentLength is total", "statement": "GetContentLength never throws; it is -1 when the header is absent or its text has no leading decimal integer fitting an int, and otherwise is the value of the longest leading (optionally signed, optionally white-space prefixed) decimal numeral.", "quantifier": "all header values", "why_tests_cant": "all strings, incl. overflow at every length", "anchors": ["src/cppnet/http/header/http_header.cpp: HttpHeader::GetContentLength"]}
{"id": "C20", "title": "Cookie lookup returns the value of the first cookie with that name", "statement": "GetCookieVal(k) returns the text after the first = of the first ;-separated item of the Cookie header whose name (text before the =, leading spaces removed) is k, and the empty string if there is none; it never throws.", "quantifier": "all Cookie header texts and keys", "why_tests_cant": "all texts", "anchors": ["src/cppnet/http/header/http_header.cpp: HttpHeader::GetCookieVal"]}
{"id": "C21", "title": "Route parsing", "statement": "HttpRoute::Parse of a non-empty target sets the path to the text before the first ?, and for each &-separated item after it stores the URL-decoded text after the item's first = (or the empty value) under the text before it, later items overriding earlier ones; it fails only for the empty target, and never throws.", "quantifier": "all targets, all previous parameter contents", "why_tests_cant": "all targets", "anchors": ["src/cppnet/http/req/route/http_route.cpp: HttpRoute::Parse, GetParam"]}
{"id": "C22", "title": "Route text round-trips", "statement": "Parsing the text ToString() produced into an empty route gives back the path and every parameter, for every iteration order, whenever the path is non-empty, path and keys consist of bytes that UrlEncode leaves alone (no ? in the path, no = & in keys) and values contain no &.", "quantifier": "all such routes, all byte values in parameter values except &, all iteration orders", "why_tests_cant": "unordered_map order, all byte strings", "anchors": ["src/cppnet/http/req/route/http_route.cpp: HttpRoute::ToString, HttpRoute::Parse"]}
{"id": "C23", "title": "Request build/parse round-trip", "statement": "Parsing what HttpReq::Build produced gives a request with the same method, version, path, parameters and body, and the same headers plus the generated Host and Content-Length.", "quantifier": "all well-formed requests with at least the generated headers, all bodies, all iteration orders", "why_tests_cant": "unbounded requests; parsing cuts at searched positions", "anchors": ["src/cppnet/http/req/http_req.cpp: HttpReq::Build, HttpReq::Parse"]}
{"id": "C24", "title": "Path and parameters cannot inject into the request line", "statement": "Whatever bytes the path, parameter names and values hold (CR, LF, spaces included), the text Build produces starts with exactly one request line 'METHOD target VERSION' whose target has no space, CR or LF.", "quantifier": "all paths, parameter maps and iteration orders", "why_tests_cant": "adversarial bytes at any position", "anchors": ["src/cppnet/http/req/http_req.cpp: HttpReq::Build", "src/cppnet/http/req/route/http_route.cpp: HttpRoute::ToString"]}
{"id": "C25", "title": "Header values cannot inject further headers or end the header block", "statement": "For every header value a caller sets, the built message parsed by a conforming parser has no header the caller did not set.", "quantifier": "all header maps", "why_tests_cant": "adversarial values", "anchors": ["src/cppnet/http/header/http_header.cpp: HttpHeader::Add, HttpHeader::ToString"]}
{"id": "C26", "title": "HttpReq::Parse is total", "statement": "HttpReq::Parse returns kSuccess or kLogicErr for every byte string and every previous object state: it never throws, loops or reads out of bounds.", "quantifier": "all byte strings, all previous states", "why_tests_cant": "every malformed input", "anchors": ["src/cppnet/http/req/http_req.cpp: HttpReq::Parse"]}
{"id": "C27", "title": "HttpReq::Parse accepts exactly the well-formed requests", "statement": "Parse succeeds exactly when the text has a CRLFCRLF, its first line is three space-separated tokens (a known method, a non-empty target, a known version) and every header line has a colon.", "quantifier": "all byte strings", "why_tests_cant": "all malformed inputs", "anchors": ["src/cppnet/http/req/http_req.cpp: HttpReq::Parse"]}
{"id": "C28", "title": "Response build/parse round-trip", "statement": "Parsing what HttpResp::Build produced gives the same status code, version, body and headers (plus the generated Content-Length).", "quantifier": "all responses with a known status and well-formed headers, all bodies, all iteration orders", "why_tests_cant": "unbounded bodies incl. ones containing CRLFCRLF", "anchors": ["src/cppnet/http/resp/http_resp.cpp: HttpResp::Build, HttpResp::Parse"]}
{"id": "C29", "title": "HttpResp::Parse is total", "statement": "HttpResp::Parse returns kSuccess or kLogicErr for every byte string: it never throws.", "quantifier": "all byte strings", "why_tests_cant": "every malformed input", "anchors": ["src/cppnet/http/resp/http_resp.cpp: HttpResp::Parse"]}
{"id": "C30", "title": "Messages are self-delimiting", "statement": "In the text HttpResp::Build (or HttpReq::Build) produces from well-formed headers, the first CRLFCRLF ends the header block, what follows is exactly the body, and its length is the announced Content-Length.", "quantifier": "all such messages with bodies below 2 GiB (what larger ones announce: C18), all iteration orders", "why_tests_cant": "all bodies and header maps", "anchors": ["src/cppnet/http/resp/http_resp.cpp: HttpResp::Build", "src/cppnet/http/req/http_req.cpp: HttpReq::Build"]}
{"id": "C31", "title": "Response helpers set status, body and type", "statement": "NotFound, Redirect, SuccessWithBinary, SuccessWithJson, Success, BadRequest, InternalServerError, Json and Text set exactly the documented status, body and Content-Type (and Location) and change no other header, from any previous state; only UNKNOWN status makes Build fail.", "quantifier": "all previous response states and arguments", "why_tests_cant": "all states", "anchors": ["src/cppnet/http/resp/http_resp.cpp"]}
{"id": "C32", "title": "The result of Parse depends only on the input", "statement": "Parsing a text into a request or response object that was used before gives the same observable object as parsing it into a fresh one.", "quantifier": "all previous object states, all inputs", "why_tests_cant": "all histories of object reuse", "anchors": ["src/cppnet/http/req/http_req.cpp: Parse, Clear", "src/cppnet/http/resp/http_resp.cpp: Parse, Clear"]}
{"id": "C33", "title": "ReadUntil returns exactly the bytes up to and including the delimiter", "statement": "When the incoming byte stream contains the delimiter, ReadUntil into an empty buffer stores the shortest prefix of the stream that ends with the delimiter, returns its length and leaves all later bytes unread; when the stream ends first it returns the result of the failing receive.", "quantifier": "all byte streams, all non-empty delimiters, all stream ends", "why_tests_cant": "all streams; over-reading would corrupt the next message", "anchors": ["src/cppnet/socket/socket.cpp: Socket::ReadUntil"]}
{"id": "C34", "title": "ReadUntil never throws", "statement": "No byte sequence sent by the peer makes ReadUntil throw or access memory out of range.", "quantifier": "all byte streams and delimiters", "why_tests_cant": "adversarial peers", "anchors": ["src/cppnet/socket/socket.cpp: Socket::ReadUntil"]}
{"id": "C35", "title": "Read and ReadPeek deliver the received bytes", "statement": "After Socket::Read(buf, len, complete) returned n >= 0, buf holds exactly the n received bytes (n = len when complete is set and the stream has that many), ReadPeek leaves the stream untouched.", "quantifier": "all incoming byte streams, all lengths", "why_tests_cant": "all byte values, NUL included", "anchors": ["src/cppnet/socket/socket.cpp: Socket::Read, Socket::ReadPeek"]}
{"id": "C36", "title": "A closed or uninitialised socket performs no I/O", "statement": "Once Close returned (or before Init succeeded) every Read, Write, Connect, Bind, Listen, Accept and Close on that object fails with -1 (Accept: an uninitialised socket) without a system call on the old descriptor, until Init is called again; Close issues exactly one close per successful Init.", "quantifier": "all sequences of calls on one Socket object", "why_tests_cant": "all call histories", "anchors": ["src/cppnet/socket/socket.cpp"]}
{"id": "C37", "title": "Requests reach the server unchanged", "statement": "When an HttpClient sends a request over a reliable stream to an HttpServer, the server's handlers see the same method, path, parameters and body and every header the client set; pipelined bytes of later requests stay in the stream.", "quantifier": "all well-formed requests, all bodies", "why_tests_cant": "all bodies (binary included), all lengths", "anchors": ["src/cppnet/http/client/http_client.cpp: HttpClient::Send", "src/cppnet/http/server/http_server.cpp: HttpServer::HandleRead"]}
{"id": "C38", "title": "Responses reach the client unchanged", "statement": "The response a handler sets is what HttpClient::Send returns: same status, headers and body.", "quantifier": "all responses with well-formed headers, all bodies", "why_tests_cant": "all bodies", "anchors": ["src/cppnet/http/client/http_client.cpp: HttpClient::Send", "src/cppnet/http/server/http_server.cpp: HttpServer::HandleRead"]}
{"id": "C39", "title": "Send reports success only for a complete response", "statement": "HttpClient::Send returns 0 only if the request was written and a complete response (header block and Content-Length bytes) was received and parsed.", "quantifier": "all behaviours of the connection", "why_tests_cant": "every failure point of the connection", "anchors": ["src/cppnet/http/client/http_client.cpp: HttpClient::Send"]}
{"id": "C40", "title": "Routing runs exactly the matching handlers in order", "statement": "For every request path the server calls the handlers registered on a full path (group prefix + path) equal to it, and the non-exact handlers (Use, StaticDir) registered on a prefix of it, whose filters all accept: shortest path first, in registration order on equal paths.", "quantifier": "all registration sequences (groups included) and all request paths", "why_tests_cant": "all orders of registration and overlapping paths", "anchors": ["src/cppnet/http/server/http_server.cpp: HttpGroup::RegisterHandler, HttpServer::HandleRead"]}
{"id": "C41", "title": "A handler registered with GET (POST) runs only for GET (POST) requests", "statement": "No request with another method reaches a handler registered through GET or POST.", "quantifier": "all registrations, all requests", "why_tests_cant": "all requests", "anchors": ["src/cppnet/http/server/http_server.cpp: HttpGroup::GET, HttpGroup::POST"]}
{"id": "C42", "title": "Abort stops the handler chain", "statement": "After a handler calls ctx.Abort() (and no later Next), no further handler runs for that request.", "quantifier": "all handler chains", "why_tests_cant": "all chains", "anchors": ["src/cppnet/http/server/http_server.hpp: HttpContext::Abort", "src/cppnet/http/server/http_server.cpp: HttpServer::HandleRead"]}
{"id": "C43", "title": "StaticDir never serves files outside its directory", "statement": "Every path StaticDir opens is the configured directory, a slash and a suffix of the request path that has no '..' in it, so after lexical normalisation it lies inside the configured directory.", "quantifier": "all request paths and mount paths, all non-empty directory names (an empty one is the root directory: C43_empty_dir_escapes)", "why_tests_cant": "adversarial paths", "anchors": ["src/cppnet/http/server/http_server.cpp: HttpGroup::StaticDir"]}
{"id": "C44", "title": "Static handlers serve the file's bytes with its content type", "statement": "For a GET of an existing readable file, StaticFile and StaticDir answer 200 with exactly the file's bytes and the content type of its suffix (a registered custom type included).", "quantifier": "all file contents, suffixes and custom registrations", "why_tests_cant": "all contents and registrations", "anchors": ["src/cppnet/http/server/http_server.cpp: HttpGroup::StaticDir, HttpGroup::StaticFile"]}
{"id": "C45", "title": "Every readable request is answered exactly once", "statement": "For every complete request the server writes exactly one response: 400 (then close) when parsing fails, 404 when no handler set a status, otherwise the handler's response.", "quantifier": "all inputs on a healthy connection, all handlers", "why_tests_cant": "all inputs", "anchors": ["src/cppnet/http/server/http_server.cpp: HttpServer::HandleRead"]}
{"id": "C46", "title": "No client input crashes the server", "statement": "Whatever bytes a client sends, HandleRead finishes without an exception or undefined behaviour.", "quantifier": "all byte streams", "why_tests_cant": "adversarial input", "anchors": ["src/cppnet/http/server/http_server.cpp: HttpServer::HandleRead", "src/cppnet/utils/trie.cpp", "src/cppnet/socket/socket.cpp"]}
{"id": "C47", "title": "A truncated request body is rejected", "statement": "A handler never runs for a request whose announced Content-Length bytes did not all arrive.", "quantifier": "all streams that end early", "why_tests_cant": "every truncation point", "anchors": ["src/cppnet/http/server/http_server.cpp: HttpServer::HandleRead"]}
{"id": "C48", "title": "Accepted tasks run at most once, in FIFO order", "statement": "Under every interleaving of workers and clients, the sequence of started tasks is a prefix of the sequence of accepted tasks: nothing is run twice, nothing that was not accepted is run, and tasks start in the order they were queued.", "quantifier": "all thread interleavings, any number of workers and clients", "why_tests_cant": "schedules", "anchors": ["src/cppnet/utils/threadpool.cpp: ThreadPool::AddTask, ThreadPool::Worker"]}
{"id": "C49", "title": "A running pool never forgets a queued task", "statement": "While the pool is running with at least one worker, a non-empty queue always has a worker that is awake (not blocked waiting for a notification) or an AddTask that is about to notify one, so no wake-up is lost and the pool cannot deadlock with work pending.", "quantifier": "all interleavings", "why_tests_cant": "lost wake-ups depend on the schedule", "anchors": ["src/cppnet/utils/threadpool.cpp: ThreadPool::AddTask, ThreadPool::Worker"]}
{"id": "C50", "title": "Stop waits for running tasks and afterwards nothing runs", "statement": "When Stop has returned, every worker has exited, no task is executing and none starts later.", "quantifier": "all interleavings", "why_tests_cant": "schedules", "anchors": ["src/cppnet/utils/threadpool.cpp: ThreadPool::Stop"]}
{"id": "C51", "title": "Stop runs every accepted task before it returns", "statement": "Every task for which AddTask returned kSuccess has been executed when Stop returns.", "quantifier": "all interleavings", "why_tests_cant": "schedules", "anchors": ["src/cppnet/utils/threadpool.cpp: ThreadPool::Stop, ThreadPool::Worker"]}
{"id": "C52", "title": "Stop always terminates", "statement": "From every reachable state, once all running tasks finish, Stop returns: no worker can stay blocked after Stop's notification.", "quantifier": "all interleavings", "why_tests_cant": "lost wake-ups depend on the schedule", "anchors": ["src/cppnet/utils/threadpool.cpp: ThreadPool::Stop, ThreadPool::Worker"]}
{"id": "C53", "title": "Resize keeps the pool usable", "statement": "After Resize(n) with n > 0 the pool has n live workers and accepts tasks; destroying it afterwards is safe.", "quantifier": "all histories of Init, Resize, AddTask, Stop and destruction", "why_tests_cant": "histories", "anchors": ["src/cppnet/utils/threadpool.cpp: ThreadPool::Resize, ThreadPool::Stop"]}
{"id": "C54", "title": "GetBusyAndTaskNum reports consistent numbers", "statement": "The reported task number is the exact queue length and the busy number never exceeds the number of workers and equals the number of workers currently between taking up and finishing a task.", "quantifier": "all interleavings", "why_tests_cant": "schedules", "anchors": ["src/cppnet/utils/threadpool.cpp: ThreadPool::GetBusyAndTaskNum"]}
{"id": "C55", "title": "FileLogger loses and duplicates nothing", "statement": "If every file append succeeds, after Stop the file holds its previous content followed by every logged line exactly once, for every schedule of the background flusher and every clock.", "quantifier": "all logging histories, all flush schedules, all clocks, all buffer sizes/counts >= 1", "why_tests_cant": "schedules", "anchors": ["src/cppnet/log/file_logger.cpp"]}
{"id": "C56", "title": "FileLogger keeps the order of lines", "statement": "Lines appear in the file in the order they were logged.", "quantifier": "all logging histories and flush schedules", "why_tests_cant": "schedules", "anchors": ["src/cppnet/log/file_logger.cpp: FileLogger::Stop, FileLogger::CheckFlush"]}
{"id": "C57", "title": "Failed appends do not lose lines", "statement": "If an append fails, its lines stay buffered and are written by a later Stop whose appends succeed.", "quantifier": "all patterns of append failures", "why_tests_cant": "fault patterns", "anchors": ["src/cppnet/log/file_logger.cpp: FileLogger::FlushBuffer"]}
{"id": "C58", "title": "Log level filtering", "statement": "A logger emits a message exactly when the message's level is at least the logger's level; MultiLogger passes every message to each of its loggers, in order, each applying its own level.", "quantifier": "all levels, all messages, all nestings of loggers", "why_tests_cant": "all combinations", "anchors": ["src/cppnet/log/std_logger.hpp", "src/cppnet/log/file_logger.cpp", "src/cppnet/log/multi_logger.cpp"]}
{"id": "C59", "title": "FileLogger::Init reports an unusable file", "statement": "Init returns 0 only if the logger is usable afterwards (later messages reach the file).", "quantifier": "all outcomes of file creation and permission check", "why_tests_cant": "environment outcomes", "anchors": ["src/cppnet/log/file_logger.cpp: FileLogger::Init"]}
{"id": "C60", "title": "Data that arrived before the peer closed is delivered", "statement": "When a peer sends data and then closes, the server gets a read event for the data before the leave event.", "quantifier": "all event batches", "why_tests_cant": "event combinations depend on timing", "anchors": ["src/cppnet/server/io_multiplexing/epoll.cpp: Epoll::Loop"]}
{"id": "C61", "title": "In I/O multiplexing mode every accepted connection is closed exactly once", "statement": "For every sequence of events, each connection delivered with kEventAccept is closed once, right after its kEventLeave or kEventError callback, is no longer monitored afterwards, and no descriptor is leaked or closed twice.", "quantifier": "all event sequences", "why_tests_cant": "histories", "anchors": ["src/cppnet/server/tcp_server.cpp: HandleAccept, HandleLeave, HandleError, EventLoop"]}
{"id": "C62", "title": "In multi-thread mode every accepted connection is closed", "statement": "Each accepted connection's descriptor is closed after its kEventLeave callback.", "quantifier": "all connections", "why_tests_cant": "histories", "anchors": ["src/cppnet/server/tcp_server.cpp: TcpServer::EventLoop"]}
{"id": "C63", "title": "A failed Init leaks nothing", "statement": "When TcpServer::Init returns an error, every descriptor it opened is closed again.", "quantifier": "all failure points of Init", "why_tests_cant": "each failing system call", "anchors": ["src/cppnet/server/tcp_server.cpp: CreateSocket, Init, InitMode"]}
{"id": "C64", "title": "A registered callback is the one that is called", "statement": "After Register(cb) every event is delivered to cb.", "quantifier": "all orders of Init, Register", "why_tests_cant": "histories", "anchors": ["src/cppnet/server/tcp_server.cpp: Register, InitMode"]}
{"id": "C65", "title": "Addresses round-trip", "statement": "Address(ip, port) reports the same port for every port and the same ip text for every canonical dotted quad, ToString is 'ip:port'; Init fails for text that is not an address.", "quantifier": "all 2^16 ports, all 2^32 addresses, all strings", "why_tests_cant": "2^48 combinations", "anchors": ["src/cppnet/socket/address.cpp"]}
{"id": "C66", "title": "A complete SSL read returns all requested bytes or fails", "statement": "SSLSocket::Read(buf, len, true) returns len with exactly the next len stream bytes in buf, or, if the stream ends before or len is 2 GiB or more, an error; it never returns a short count, whatever record sizes SSL_read delivers.", "quantifier": "all record fragmentations, all lengths", "why_tests_cant": "fragmentations", "anchors": ["src/cppnet/ssl/ssl_socket.cpp: SSLSocket::IORead"]}
{"id": "C67", "title": "Context data is typed and keyed", "statement": "HttpContext::Get<T>(k) returns the value of the last Set<T'>(k, v) if T' = T and a default T otherwise, for every history of Set/Get calls.", "quantifier": "all histories", "why_tests_cant": "histories", "anchors": ["src/cppnet/http/server/http_server.hpp: HttpContext::Get, HttpContext::Set"]}
{"id": "C68", "title": "SetCookie keeps cookies apart", "statement": "After several SetCookie calls the response carries one Set-Cookie header per cookie.", "quantifier": "all cookie sequences", "why_tests_cant": "sequences", "anchors": ["src/cppnet/http/header/http_header.cpp: HttpHeader::SetCookie"]}
{"id": "C69", "title": "A response whose header block is not terminated is rejected", "statement": "HttpResp::Parse returns an error for every text that does not contain CRLFCRLF.", "quantifier": "all byte strings without CRLFCRLF", "why_tests_cant": "every truncation point", "anchors": ["src/cppnet/http/resp/http_resp.cpp: HttpResp::Parse"]}
{"id": "C70", "title": "Paths with special characters survive the wire", "statement": "Parsing the text of a built request gives back the path that was set, for every path (spaces, percent signs and non-ASCII bytes included).", "quantifier": "all paths", "why_tests_cant": "all byte strings", "anchors": ["src/cppnet/http/req/route/http_route.cpp: HttpRoute::ToString, HttpRoute::Parse"]}
{"id": "C71", "title": "Option setters do not touch a closed socket's descriptor", "statement": "SetNoBlock, SetBlock, SetReuseAddr, SetReadTimeout, SetWriteTimeout and SetSockOpt on a closed Socket make no system call on the old descriptor number.", "quantifier": "all sequences of calls on one Socket object", "why_tests_cant": "all call histories", "anchors": ["src/cppnet/socket/socket.cpp: SetNoBlock, SetBlock, SetSockOpt"]}
{"id": "C72", "title": "ReadPeek leaves the data in the connection, SSL or not", "statement": "After ReadPeek the next Read returns the same bytes again, on a plain and on an SSL socket.", "quantifier": "all incoming streams, lengths, record sizes", "why_tests_cant": "all streams and fragmentations", "anchors": ["src/cppnet/ssl/ssl_socket.cpp: SSLSocket::IORead", "src/cppnet/socket/socket.cpp: Socket::ReadPeek"]}
{"id": "C73", "title": "Closing an SSL socket says goodbye before the descriptor is closed", "statement": "SSLSocket::Close performs the SSL shutdown on the open descriptor, closes the descriptor exactly once, and makes no call on the descriptor number after it is closed.", "quantifier": "all sequences of calls on one SSLSocket object", "why_tests_cant": "use of a closed descriptor number only shows when it was reused", "anchors": ["src/cppnet/ssl/ssl_socket.cpp: SSLSocket::Close, SSLSocket::CloseSSL"]}
{"id": "C74", "title": "Static handlers outlive the group object", "statement": "A handler registered by StaticDir or StaticFile through any HttpGroup, also a temporary one, serves requests for as long as the server runs.", "quantifier": "all groups, paths, files, requests", "why_tests_cant": "undefined behaviour on a dead object may go unnoticed in a test", "anchors": ["src/cppnet/http/server/http_server.cpp: HttpGroup::StaticDir, HttpGroup::StaticFile"]}
{"id": "C75", "title": "A response is sent completely or the connection is closed", "statement": "After HandleRead, either all bytes of the response were passed to the connection or the connection is closed.", "quantifier": "all responses, all outcomes of the write", "why_tests_cant": "write outcomes depend on buffers and timing", "anchors": ["src/cppnet/http/server/http_server.cpp: HttpServer::HandleRead", "src/cppnet/socket/socket.cpp: Socket::Write"]}
{"id": "C76", "title": "A host filter accepts exactly the matching hosts", "statement": "A HttpHostFilter initialised with a regular expression accepts a request iff its Host matches the expression, one initialised with a wildcard iff its Host matches the wildcard.", "quantifier": "all expressions, wildcards, requests", "why_tests_cant": "all strings", "anchors": ["src/cppnet/http/server/filter/http_host_filter.hpp"]}
{"id": "C77", "title": "StaticDir maps a URL to the file of the same relative name", "statement": "A request for mount ++ '/' ++ rel, where mount is the full mount path (group prefix and path), is answered from dir ++ '/' ++ rel.", "quantifier": "all group prefixes, paths, directories, relative names", "why_tests_cant": "all strings", "anchors": ["src/cppnet/http/server/http_server.cpp: HttpGroup::StaticDir"]}
{"id": "C78", "title": "AddTask's result tells whether the task was queued", "statement": "The tasks the pool has accepted are exactly those of the AddTask calls that returned kSuccess, in the order in which they were queued, apart from a call that is about to return.", "quantifier": "all interleavings of any number of threads", "why_tests_cant": "schedules", "anchors": ["src/cppnet/utils/threadpool.cpp: ThreadPool::AddTask"]}
{"id": "C79", "title": "A stopped pool accepts nothing any more", "statement": "Every AddTask call begun after a call of Stop has returned is refused, whatever else is called in between.", "quantifier": "all interleavings, all later histories", "why_tests_cant": "schedules and histories", "anchors": ["src/cppnet/utils/threadpool.cpp: ThreadPool::Stop, ThreadPool::AddTask"]}
{"id": "C80", "title": "The normal life of a pool does not terminate the program", "statement": "A pool that one thread initialises once, stops any number of times and destroys never calls std::terminate (no joinable thread is destroyed, none is joined twice), whatever tasks other threads add meanwhile, as long as no task throws.", "quantifier": "all interleavings", "why_tests_cant": "schedules", "anchors": ["src/cppnet/utils/threadpool.cpp: ThreadPool::Init, ThreadPool::Stop", "src/cppnet/utils/threadpool.hpp: ~ThreadPool"]}
{"id": "C81", "title": "set_level limits what a logger emits", "statement": "After set_level(v) a logger, of whatever class, emits no message of a level below v.", "quantifier": "all loggers, levels, messages", "why_tests_cant": "all combinations", "anchors": ["src/cppnet/log/logger.hpp: Logger::set_level", "src/cppnet/log/multi_logger.cpp"]}
{"id": "C82", "title": "FileLogger::Stop and the destructor return", "statement": "From every reachable state a call of Stop (or the destructor) returns once the running flush has ended.", "quantifier": "all interleavings of the logging thread and the background thread", "why_tests_cant": "schedules", "anchors": ["src/cppnet/log/file_logger.cpp: FileLogger::Stop", "src/cppnet/utils/threadpool.cpp: ThreadPool::Stop"]}
{"id": "C83", "title": "A FileLogger can be stopped, initialised again and destroyed", "statement": "Whatever sequence of Init, logging calls and Stop is made, destroying the logger never terminates the program.", "quantifier": "all histories and schedules", "why_tests_cant": "histories and schedules", "anchors": ["src/cppnet/log/file_logger.cpp: FileLogger::Init, FileLogger::Stop", "src/cppnet/utils/threadpool.cpp"]}
{"id": "C84", "title": "The log file only ever holds whole lines", "statement": "At every moment, before Stop too, the file holds its previous content followed by whole logged lines, none more often than it was logged (as long as the operating system takes every write that it starts completely, Stop can open the file, and the number of buffers is at least one and set before Init).", "quantifier": "all moments of all executions", "why_tests_cant": "schedules, crash points", "anchors": ["src/cppnet/log/file_logger.cpp: FileLogger::FlushBuffer, FileLogger::CheckFlush"]}
{"id": "C85", "title": "Stop ends the event loop", "statement": "After Stop, followed by WakeUp, EventLoop returns in every mode without anything else having to happen, and handles nothing that is reported later.", "quantifier": "all modes, all moments of Stop, all reports", "why_tests_cant": "schedules", "anchors": ["src/cppnet/server/tcp_server.cpp: TcpServer::Stop, TcpServer::WakeUp, TcpServer::EventLoop", "src/cppnet/server/io_multiplexing/epoll.cpp: Epoll::Loop, Epoll::Stop"]}
{"id": "C86", "title": "The trigger type that was set is used", "statement": "After io_multiplexing()->set_trigger_type(kEdgeTrigger) descriptors added later are watched edge-triggered.", "quantifier": "all histories", "why_tests_cant": "not visible in the results of the calls", "anchors": ["src/cppnet/server/io_multiplexing/io_multiplexing_base.hpp: set_trigger_type", "src/cppnet/server/io_multiplexing/epoll.hpp: trigger_type_"]}
{"id": "C87", "title": "In mixed mode a connection is handled by one task at a time, and not after it was closed", "statement": "At most one task of a connection is queued or running, and none when its descriptor is closed.", "quantifier": "all schedules of the loop and the pool", "why_tests_cant": "schedules", "anchors": ["src/cppnet/server/tcp_server.cpp: TcpServer::EventLoop, TcpServer::HandleRead"]}
{"id": "C88", "title": "Clean releases the server's own descriptors", "statement": "After Clean every descriptor the server opened for itself (listening sockets, epoll descriptors, wake-up sockets) is closed; a second Clean closes nothing.", "quantifier": "all histories", "why_tests_cant": "histories", "anchors": ["src/cppnet/server/tcp_server.cpp: TcpServer::Clean, TcpServer::Init, TcpServer::WakeUp"]}
{"id": "C89", "title": "No order of calls crashes the server", "statement": "No sequence of calls on a TcpServer goes through a null pointer or an empty callback.", "quantifier": "all histories, answers of the system, actions of the callbacks", "why_tests_cant": "histories", "anchors": ["src/cppnet/server/tcp_server.cpp"]}
{"id": "C90", "title": "I/O on a closed TLS socket is refused", "statement": "After Close or CloseSSL on an SSLSocket, reading and writing return an error and touch neither session nor descriptor.", "quantifier": "all histories of calls on the object", "why_tests_cant": "histories", "anchors": ["src/cppnet/ssl/ssl_socket.cpp: SSLSocket::CloseSSL, SSLSocket::IORead, SSLSocket::IOWrite"]}
{"id": "C91", "title": "Only a completed handshake gives a TLS socket", "statement": "AcceptSSL returns a socket exactly when the TLS handshake completed; otherwise the session made for it is freed.", "quantifier": "all connections and all results of the handshake", "why_tests_cant": "the results of SSL_accept are outside the test's control", "anchors": ["src/cppnet/ssl/ssl_context.cpp: SSLContext::AcceptSSL"]}
{"id": "C92", "title": "A server context that was initialised has the given certificate and key", "statement": "When InitSvr or InitSvrFile returns success, the context in use was given the certificate and the private key.", "quantifier": "all arguments and all answers of OpenSSL", "why_tests_cant": "answers of OpenSSL", "anchors": ["src/cppnet/ssl/ssl_context.cpp: SSLContext::InitSvr, SSLContext::InitSvrFile"]}
{"id": "C93", "title": "A SSLContext frees what it made", "statement": "Every SSL_CTX that a SSLContext makes or is given is freed exactly once by the end of the object's life.", "quantifier": "all histories of calls, all answers of OpenSSL", "why_tests_cant": "histories, failures of OpenSSL", "anchors": ["src/cppnet/ssl/ssl_context.cpp: SSLContext::Init, SSLContext::InitCli, SSLContext::InitSvr, SSLContext::Close"]}
{"id": "C94", "title": "A TLS socket that cannot be made leaves no descriptor behind", "statement": "CreateSSLSocket() either returns a TLS socket that owns the new descriptor or leaves no descriptor open.", "quantifier": "all answers of the system and OpenSSL", "why_tests_cant": "failures of OpenSSL", "anchors": ["src/cppnet/ssl/ssl_context.cpp: SSLContext::CreateSSLSocket"]}
{"id": "C95", "title": "A TLS connection is served through its own session", "statement": "Whenever a TLS HttpServer reads or writes a connection it uses the session whose handshake was made on this connection since it was accepted and which was not freed, also when descriptor numbers are used again; it never goes through a missing session.", "quantifier": "all sequences of events, with any reuse of descriptor numbers", "why_tests_cant": "histories with reuse of descriptor numbers", "anchors": ["src/cppnet/http/server/http_server.cpp: HttpServer::HandleAccept, HttpServer::HandleRead, HttpServer::HandleLeave, HttpServer::HandleError"]}
{"id": "C96", "title": "TLS sessions are freed with their connection", "statement": "Every session of a TLS HttpServer is freed exactly once, at the latest when its connection ends.", "quantifier": "all sequences of events", "why_tests_cant": "histories", "anchors": ["src/cppnet/http/server/http_server.cpp: HttpServer::HandleError, HttpServer::HandleLeave"]}
{"id": "C97", "title": "A file holds what was written to it", "statement": "After File::Write returned success, and after any later calls that do not rewrite or remove this file, File::Read gives the written data followed by all data appended since; a Write or Append that fails changes nothing and returns an error; Read reports what it cannot read with an error code.", "quantifier": "all paths, data and sequences of calls, all answers of the system", "why_tests_cant": "all data and histories; a full disk", "anchors": ["src/cppnet/utils/file.cpp: File::Write, File::Append, File::Read"]}
{"id": "C98", "title": "LineCount is the number of lines", "statement": "LineCount gives the number of lines of a file (a last line without line feed counts), and 0 for a missing file.", "quantifier": "all contents", "why_tests_cant": "all contents; huge files", "anchors": ["src/cppnet/utils/file.cpp: File::LineCount"]}
{"id": "C99", "title": "Create makes an empty file and touches nothing else", "statement": "When File::Create returns success the file exists, it is empty if it did not exist before, and nothing that existed is changed; missing directories are made; failures are returned as an error.", "quantifier": "all paths and file trees, all answers of the system", "why_tests_cant": "file trees, refusals of the system", "anchors": ["src/cppnet/utils/file.cpp: File::Create"]}
{"id": "C100", "title": "Remove removes exactly the given file", "statement": "When File::Remove returns success the path is gone and everything else is as it was; failures are returned as an error.", "quantifier": "all paths and file trees, all answers of the system", "why_tests_cant": "file trees, refusals of the system", "anchors": ["src/cppnet/utils/file.cpp: File::Remove"]}
{"id": "C101", "title": "CanWrite says whether the file can be written", "statement": "File::CanWrite returns true exactly when File::Append to the path would be granted by the system.", "quantifier": "all paths, file trees and permissions", "why_tests_cant": "file trees, permissions", "anchors": ["src/cppnet/utils/file.cpp: File::CanWrite"]}
{"id": "C102", "title": "HttpClient releases what it opened", "statement": "By the end of a HttpClient's life every descriptor, TLS session and TLS context that it opened is released exactly once.", "quantifier": "all histories of Init, InitSSL, Close and destruction, all answers of the system and OpenSSL", "why_tests_cant": "histories, failures", "anchors": ["src/cppnet/http/client/http_client.cpp: HttpClient::Init, HttpClient::InitSSL, HttpClient::Close", "src/cppnet/http/client/http_client.hpp: ~HttpClient"]}
{"id": "C103", "title": "No order of calls crashes the HttpClient", "statement": "No sequence of Init, InitSSL, Close and destruction goes through a null pointer.", "quantifier": "all histories", "why_tests_cant": "histories", "anchors": ["src/cppnet/http/client/http_client.cpp"]}
{"id": "C104", "title": "HttpClient connects to the given port, 80 or 443 if it is 0", "statement": "Init and InitSSL connect to the address and port that were given; when the port is 0 they use the default port (80, with TLS 443).", "quantifier": "all addresses and ports", "why_tests_cant": "all inputs", "anchors": ["src/cppnet/http/client/http_client.cpp: HttpClient::Init, HttpClient::InitSSL"]}
{"id": "C105", "title": "Requests on one connection are served in order, each like a request that arrives alone", "statement": "However many complete requests arrive back to back on one connection, the server answers them in order, one call per request, writes for each exactly what it writes when that request arrives alone, and leaves the bytes after them unread.", "quantifier": "all lists of complete requests below 2 GiB with ASCII paths, all following bytes, all handlers that return and do not read the stream themselves", "why_tests_cant": "all inputs, all histories", "anchors": ["src/cppnet/http/server/http_server.cpp: HttpServer::HandleRead", "src/cppnet/socket/socket.cpp: Socket::ReadUntil"]}
{"id": "C106", "title": "A client and a server can talk for ever", "statement": "Any number of HttpClient::Send calls one after the other on one connection each return success, with the response that the handlers gave to this very request, and leave nothing over in either direction.", "quantifier": "all lists of requests and responses that can be put on the wire", "why_tests_cant": "all inputs, all histories", "anchors": ["src/cppnet/http/client/http_client.cpp: HttpClient::Send", "src/cppnet/http/server/http_server.cpp: HttpServer::HandleRead"]}
{"id": "C107", "title": "Clients do not influence each other", "statement": "When the handlers share no state, what a client gets does not depend on what other clients send or on how their requests are interleaved.", "quantifier": "all sets of connections, all interleavings", "why_tests_cant": "all schedules", "anchors": ["src/cppnet/http/server/http_server.cpp: HttpServer::HandleRead, HttpServer::StaticDir", "src/cppnet/http/header/http_header.cpp: HttpHeader::SetContentType"]}
{"id": "C108", "title": "A slow client does not hold up the others", "statement": "With I/O multiplexing, a client that has sent part of a request does not keep the server from serving the others.", "quantifier": "all unfinished requests", "why_tests_cant": "schedules", "anchors": ["src/cppnet/http/server/http_server.cpp: HttpServer::HandleRead", "src/cppnet/socket/socket.cpp: Socket::ReadUntil"]}
{"id": "C109", "title": "The server closes the connection after the response exactly when the client asks for it", "statement": "After the response the server closes the connection when the request says Connection: close (or comes from an HTTP/1.0 client) and keeps it open otherwise.", "quantifier": "all complete requests", "why_tests_cant": "all inputs", "anchors": ["src/cppnet/http/server/http_server.cpp: HttpServer::HandleRead"]}
{"id": "C110", "title": "TLS changes nothing about how a request is served", "statement": "Whatever records the client's bytes arrive in, a TLS connection is served like a plain one: the handlers see the same request, and the same response is written.", "quantifier": "all byte streams with a complete body, all divisions into records", "why_tests_cant": "all inputs, all fragmentations", "anchors": ["src/cppnet/http/server/http_server.cpp: HttpServer::HandleRead", "src/cppnet/ssl/ssl_socket.cpp: SSLSocket::IORead", "src/cppnet/socket/socket.cpp: Socket::ReadUntil, Socket::Read"]}
{"id": "C111", "title": "Requests sent one after the other on a TLS connection are all answered", "statement": "Every complete request that has arrived on a TLS connection is answered without waiting for further bytes of the client.", "quantifier": "all lists of requests, all divisions into records", "why_tests_cant": "all inputs, all fragmentations", "anchors": ["src/cppnet/http/server/http_server.cpp: HttpServer::HandleRead", "src/cppnet/ssl/ssl_socket.cpp: SSLSocket::IORead", "src/cppnet/server/io_multiplexing/epoll.cpp: Epoll::Loop"]}
{"id": "C112", "title": "TLS changes nothing about what a client gets", "statement": "Whatever records the server's bytes arrive in, HttpClient::Send over TLS returns the same code and fills the response with the same status, headers and body as over a plain connection.", "quantifier": "all byte streams whose header block announces at most 2 GiB less one page (the most one receive on a plain socket gives), all divisions into records", "why_tests_cant": "all inputs, all fragmentations", "anchors": ["src/cppnet/http/client/http_client.cpp: HttpClient::Send, HttpClient::InitSSL", "src/cppnet/ssl/ssl_socket.cpp: SSLSocket::IORead"]}
{"id": "C113", "title": "Run serves exactly when the server was started", "statement": "Run on an HttpServer that was never started, whose last start failed, or that was stopped since returns an error without any system call; on a server that was started and not stopped it enters the loop and hands every event to the HTTP handlers.", "quantifier": "all histories of Init, InitSSL, Run, Stop and the timeout setters in each mode, all answers of the system", "why_tests_cant": "histories, failures", "anchors": ["src/cppnet/http/server/http_server.cpp: HttpServer::Init, HttpServer::Run, HttpServer::Stop", "src/cppnet/server/tcp_server.cpp: TcpServer::Init, TcpServer::EventLoop"]}
{"id": "C114", "title": "Init starts a plain server, InitSSL a TLS server", "statement": "After a successful Init new connections are served without TLS, after a successful InitSSL over TLS with the given context; a refused InitSSL (mixed mode, no context) changes nothing, so that no connection is ever served over TLS in mixed mode.", "quantifier": "all histories", "why_tests_cant": "histories", "anchors": ["src/cppnet/http/server/http_server.cpp: HttpServer::Init, HttpServer::InitSSL, HttpServer::HandleAccept"]}
{"id": "C115", "title": "The timeouts that were set hold for every new connection", "statement": "Every connection accepted after SetReadTimeout(sec, usec) (SetWriteTimeout) waits at most sec seconds and usec microseconds in a read (write), the TLS handshake included, and for ever if both are 0.", "quantifier": "all histories, all unsigned values", "why_tests_cant": "all inputs, histories", "anchors": ["src/cppnet/http/server/http_server.cpp: HttpServer::SetReadTimeout, HttpServer::SetWriteTimeout, HttpServer::HandleAccept", "src/cppnet/socket/socket.cpp: Socket::SetReadTimeout, Socket::SetWriteTimeout"]}
{"id": "C116", "title": "No order of calls crashes the HttpServer", "statement": "No sequence of calls on an HttpServer goes through a null pointer or an empty callback.", "quantifier": "all histories in each mode, all answers of the system", "why_tests_cant": "histories, failures", "anchors": ["src/cppnet/http/server/http_server.cpp: HttpServer::Init, HttpServer::Run, HttpServer::Stop", "src/cppnet/server/tcp_server.cpp"]}
{"id": "C117", "title": "Stop releases everything the HttpServer holds", "statement": "After Stop (or the destructor) every descriptor that the server opened or accepted is closed; a second Stop does nothing.", "quantifier": "all histories", "why_tests_cant": "histories", "anchors": ["src/cppnet/http/server/http_server.cpp: HttpServer::Stop", "src/cppnet/server/tcp_server.cpp: TcpServer::Clean"]}
{"id": "C118", "title": "A timer fires every period and every firing is reported once", "statement": "After Init(sec, nsec) (or Reset) succeeded, reads of the timer report exactly the firings every sec seconds and nsec nanoseconds since then: each read reports those since the last one, at least one, at once if there are any and otherwise at the next one.", "quantifier": "all periods, all sequences of reads at any times", "why_tests_cant": "all inputs, schedules", "anchors": ["src/cppnet/timer/timer.cpp: TimerSocket::Init, TimerSocket::Reset", "src/cppnet/socket/socket.cpp: Socket::Read"]}
{"id": "C119", "title": "Reading a timer gives the number of firings", "statement": "Read into a buffer or into a string delivers the number of firings; ReadPeek does so without taking them away.", "quantifier": "all numbers of firings", "why_tests_cant": "all inputs", "anchors": ["src/cppnet/timer/timer.hpp: TimerSocket::IORead", "src/cppnet/socket/socket.cpp: Socket::Read, Socket::ReadPeek"]}
{"id": "C120", "title": "The results of a timer's Init and Reset tell what happened", "statement": "Init returns the descriptor, or -1 and leaves the object unusable and nothing open; Reset returns -1 unless it set the timer.", "quantifier": "all objects, arguments and answers of the system", "why_tests_cant": "histories, failures", "anchors": ["src/cppnet/timer/timer.cpp: TimerSocket::Init, TimerSocket::Reset"]}
{"id": "C121", "title": "Datagrams are read one by one as they were written", "statement": "Each ReadUdp returns exactly one datagram with its sender, in order of arrival, with all bytes that WriteUdp was given, when it is not longer than the length asked for.", "quantifier": "all sequences of datagrams of all senders, all lengths", "why_tests_cant": "all inputs, histories", "anchors": ["src/cppnet/socket/socket.cpp: Socket::ReadUdp, Socket::WriteUdp"]}
{"id": "C122", "title": "A peer that hangs up does not stop the program", "statement": "Whatever a peer does with its connection, closing it or breaking it off at any moment, the server (or client) goes on; at most that connection is closed.", "quantifier": "all moments of closing and resetting between the writes, all requests", "why_tests_cant": "schedules, failures", "anchors": ["src/cppnet/socket/socket.hpp: Socket::IOWrite", "src/cppnet/http/server/http_server.cpp: HttpServer::HandleRead", "src/cppnet/http/client/http_client.cpp: HttpClient::Send"]}
{"id": "C123", "title": "The log of a server shows one line per request and one per answer", "statement": "Each request is logged in a line with its method, path and connection and each answer in a line with its status; no client can make the log show a line that was not logged.", "quantifier": "all requests", "why_tests_cant": "all inputs", "anchors": ["src/cppnet/http/server/http_server.cpp: HttpServer::HandleRead", "src/cppnet/log/std_logger.hpp: StdLogger"]}
{"id": "C124", "title": "A socket that was monitored successfully is watched", "statement": "On each platform, after MonitorSoc (AddSoc) reported success for a socket it is watched until it is removed; after RemoveSoc reported success it is not.", "quantifier": "all sequences of calls, any number of sockets", "why_tests_cant": "histories", "anchors": ["src/cppnet/server/io_multiplexing/select.cpp: Select::MonitorSoc, Select::RemoveSoc", "src/cppnet/server/io_multiplexing/kqueue.cpp: KQueue::MonitorSoc, KQueue::RemoveSoc"]}
{"id": "C125", "title": "Every ready socket is reported in each round", "statement": "On each platform a watched socket that is ready is reported in the round, whatever the callbacks of the others do to their own sockets.", "quantifier": "all sets of sockets, all callbacks, all rounds", "why_tests_cant": "schedules", "anchors": ["src/cppnet/server/io_multiplexing/select.cpp: Select::Loop", "src/cppnet/server/io_multiplexing/kqueue.cpp: KQueue::Loop"]}
{"id": "C126", "title": "A signal does not end the event loop", "statement": "A wait that is interrupted by a signal changes nothing: the loop goes on as if it had not happened.", "quantifier": "all runs with interruptions at any points", "why_tests_cant": "schedules", "anchors": ["src/cppnet/server/io_multiplexing/epoll.cpp: Epoll::Loop", "src/cppnet/server/io_multiplexing/kqueue.cpp: KQueue::Loop", "src/cppnet/server/tcp_server.cpp: TcpServer::EventLoop"]}
{"id": "C127", "title": "A socket is reported as left only when nothing is left to read", "statement": "On each platform the event for a ready socket is read when there is something to read, leave when the peer has closed and everything was read, and error otherwise.", "quantifier": "all states of sockets", "why_tests_cant": "schedules", "anchors": ["src/cppnet/server/io_multiplexing/select.cpp: Select::Loop", "src/cppnet/server/io_multiplexing/kqueue.cpp: KQueue::Loop"]}
{"id": "C128", "title": "Every complete request is answered as if it were alone", "statement": "Any number of connections carry complete requests one after the other. Whatever the order in which their sockets are reported ready, each report answers the next request of that connection with exactly the bytes a connection carrying only that request would get, and after as many reports as requests none is left unanswered.", "quantifier": "all numbers of connections, all sequences of complete requests below 2 GiB with ASCII paths on them, all orders of reports, all handlers that return and do not read the stream themselves", "why_tests_cant": "schedules, histories", "anchors": ["src/cppnet/http/server/http_server.cpp: HttpServer::HandleRead"]}
{"id": "C129", "title": "Reading up to a delimiter can be resumed", "statement": "When ReadUntil fails before the delimiter has come (a receive timeout), calling it again with the same buffer goes on where it stopped: in the end the buffer and the rest of the stream are what one undisturbed call would give (and it throws if that one throws).", "quantifier": "all streams, all delimiters, all ways of cutting the stream into pieces", "why_tests_cant": "schedules, all inputs", "anchors": ["src/cppnet/socket/socket.cpp: Socket::ReadUntil"]}
{"id": "C130", "title": "The client understands the response of any HTTP/1.1 server", "statement": "However a server delimits the body of its response (Content-Length in any spelling, chunked coding, end of the connection, no body at all after HEAD), Send returns 0 with exactly this body and leaves what follows on the stream.", "quantifier": "all responses allowed by HTTP/1.1", "why_tests_cant": "all inputs", "anchors": ["src/cppnet/http/client/http_client.cpp: HttpClient::Send", "src/cppnet/http/resp/http_resp.cpp: HttpResp::Parse", "src/cppnet/http/header/http_header.cpp: HttpHeader::GetContentLength"]}
{"id": "C131", "title": "The server understands the request of any HTTP/1.1 client", "statement": "However a client delimits the body of its request (Content-Length in any spelling, chunked coding), the handlers get exactly this body, and no byte of it is ever taken for another request.", "quantifier": "all requests allowed by HTTP/1.1", "why_tests_cant": "all inputs", "anchors": ["src/cppnet/http/server/http_server.cpp: HttpServer::HandleRead", "src/cppnet/http/req/http_req.cpp: HttpReq::Parse", "src/cppnet/http/header/http_header.cpp: HttpHeader::GetContentLength"]}
{"id": "C132", "title": "Header names are the same in any case", "statement": "A header received or added under a name is found under every spelling of the name that differs only in case.", "quantifier": "all names and values", "why_tests_cant": "all inputs", "anchors": ["src/cppnet/http/header/http_header.cpp: HttpHeader::Add, HttpHeader::Get, HttpHeader::GetHost"]}
{"id": "C133", "title": "A handler that throws costs at most its own request", "statement": "When a handler throws an exception the server goes on; all other connections, and requests for other paths, are served as if it had not happened.", "quantifier": "all handlers, all requests, all orders of reports", "why_tests_cant": "failures, schedules", "anchors": ["src/cppnet/http/server/http_server.cpp: HttpServer::HandleRead"]}
{"id": "C134", "title": "The thread pool can be used from many threads without a data race", "statement": "Whatever calls threads and tasks make on one pool at the same time, no two threads ever access the same plain member with one of them writing it and nothing ordering them.", "quantifier": "all numbers of threads, all calls, all interleavings", "why_tests_cant": "schedules", "anchors": ["src/cppnet/utils/threadpool.cpp: ThreadPool::AddTask, ThreadPool::Stop, ThreadPool::Init, ThreadPool::Resize, ThreadPool::Worker, ThreadPool::GetBusyAndTaskNum"]}
{"id": "C135", "title": "The nodes of a trie are freed once, and used only before", "statement": "For every history of Set and Reset with keys of 7-bit characters, with Get and Search in between, and then the destruction of the trie: every node that was allocated is deleted exactly once, none is used after it was deleted, and Reset leaves only the new root.", "quantifier": "all histories of calls, all keys of 7-bit characters, all callbacks", "why_tests_cant": "histories", "anchors": ["src/cppnet/utils/trie.cpp: Trie::~Trie, Trie::CleanMemory, Trie::Reset, Trie::ForkNode, Trie::SetNode, Trie::GetNode, Trie::SearchNode"]}
{"id": "C136", "title": "A copy of a trie is a trie of its own", "statement": "A trie can be copied; changing, resetting or destroying the copy does not concern the original.", "quantifier": "all tries", "why_tests_cant": "histories", "anchors": ["src/cppnet/utils/trie.hpp: Trie"]}
{"id": "C137", "title": "A file logger does not race with its own worker", "statement": "A file logger that is used by one thread never accesses a plain variable (the text and time of a buffer, the path) that its own worker is accessing at the same time, one of the two writing.", "quantifier": "all histories of calls, all interleavings of the thread and the worker, all file system failures", "why_tests_cant": "schedules, failures", "anchors": ["src/cppnet/log/file_logger.cpp: FileLogger::CheckFlush, FileLogger::FlushBuffer, FileLogger::Stop, FileLogger::Init"]}
{"id": "C138", "title": "A server in several threads has no data race", "statement": "While an HttpServer runs in the multi-thread or the mixed mode, no two of its threads, nor one of them and a thread that calls Stop, access the same variable of the library at the same time with one of them writing it.", "quantifier": "all schedules of the thread in Run, the pool's workers and a thread that calls Stop; all connections, requests and handlers; plain and TLS; both modes; any logger and any table of content types", "why_tests_cant": "A data race is undefined behaviour that shows only under some schedules, and often not even then.", "anchors": ["src/cppnet/http/server/http_server.cpp: HttpServer::HandleAccept, HandleRead, HandleLeave, Stop, HttpGroup::StaticDir", "src/cppnet/server/tcp_server.cpp: TcpServer::EventLoop, Stop, WakeUp, Clean", "src/cppnet/http/header/http_header.cpp: HttpHeader::ConvertToStr", "src/cppnet/socket/address.cpp: Address::GetAddrLen"]}
{"id": "C139", "title": "When Run has returned, no handler runs any more", "statement": "When HttpServer::Run has returned, no handler is running and none will run, so that the server and what the handlers use can be destroyed.", "quantifier": "all schedules; all ways in which Run returns; all connections and handlers", "why_tests_cant": "Needs a handler that is still running at the moment at which the loop ends, under a schedule that a test cannot force.", "anchors": ["src/cppnet/server/tcp_server.cpp: TcpServer::EventLoop", "src/cppnet/http/server/http_server.cpp: HttpServer::Run, Stop", "src/cppnet/http/server/http_server.hpp: HttpServer::~HttpServer"]}
{"id": "C140", "title": "Header fields and route parameters are maps", "statement": "After any sequence of the calls that fill in a header (Add, operator[], SetHost, SetContentType, SetContentLength, SetLongConnection, Clear), Get returns for every name the value stored last since the last Clear, the empty string if there is none, and the typed readers report the same value; likewise for AddParam, operator[], SetPath and Clear of a route with GetParam and GetPath.", "quantifier": "all sequences of calls, all names and values", "why_tests_cant": "all histories of calls", "anchors": ["src/cppnet/http/header/http_header.cpp: HttpHeader::Add, Get, operator[], Clear, SetHost, SetContentType, SetLongConnection, SetContentLength, GetHost, GetContentType, GetContentLength", "src/cppnet/http/req/route/http_route.cpp: HttpRoute::AddParam, GetParam, Clear", "src/cppnet/http/req/route/http_route.hpp: HttpRoute::SetPath, GetPath, operator[]"]}
{"id": "C141", "title": "Reading a header or a parameter changes nothing", "statement": "Looking up a name with operator[] of a header or a route, without assigning to it, gives the value and changes neither the object nor the text that is sent.", "quantifier": "all headers, routes and names, whether the name is there or not", "why_tests_cant": "all states of the objects", "anchors": ["src/cppnet/http/header/http_header.cpp: HttpHeader::operator[], ToString", "src/cppnet/http/req/route/http_route.hpp: HttpRoute::operator[]"]}
{"id": "C142", "title": "A request made with GET or POST carries exactly what it was given", "statement": "After GET(url, params, headers), POST(url, body, headers) or POST(url, params, headers) the request has that method, HTTP/1.1, that path, those parameters (in the URL, or in the body as a form), those headers and that body, and nothing else; and this is what the receiver parses.", "quantifier": "all URLs, parameters, headers and bodies, all orders of the hash tables, all earlier uses of the request object", "why_tests_cant": "all inputs and histories", "anchors": ["src/cppnet/http/req/http_req.cpp: HttpReq::GET, HttpReq::POST, HttpReq::Build, HttpReq::Parse, HttpReq::Clear"]}
{"id": "C143", "title": "IsFile and IsDir tell what is there", "statement": "IsFile (and Exist) say whether there is a regular file under the path, IsDir whether there is a directory. After any calls of Write, Append, Create and Remove there is a file exactly if the last successful call for that path made one; no call removes a directory, and only Create makes one. Write and Append where the parent directory is missing fail and change nothing.", "quantifier": "all trees of files, all sequences of calls, all paths, all refusals and short writes of the system", "why_tests_cant": "all histories and failures of the system", "anchors": ["src/cppnet/utils/file.cpp: File::Exist, File::IsFile, File::IsDir, File::Write, File::Append, File::Create, File::Remove"]}
{"id": "C144", "title": "The command line is what the program gets", "statement": "In the programs built on the demo utilities, GetOption tells whether a name is given on the command line, with any number of dashes and with or without a value; GetVar gives the value of the first argument with the name (everything after the first =), and nothing if there is none.", "quantifier": "all command lines, all names", "why_tests_cant": "all command lines", "anchors": ["demo/util/argc_deal.cpp: ArgcDeal::ArgcDeal, GetOption, GetVar"]}
{"id": "C145", "title": "A required option that is missing stops the program", "statement": "Run calls the program exactly when everything that was declared as required is given and neither help nor the version is asked for; otherwise it prints the version, or a usage text with a line for each declared option and variable.", "quantifier": "all command lines, all declarations in any order, all orders of the hash table", "why_tests_cant": "all command lines and declarations", "anchors": ["demo/util/argc_deal.cpp: ArgcDeal::SetOption, SetVar, Run, MsgPrint"]}
{"id": "C146", "title": "A guarded program is started again exactly when the handler wants it", "statement": "Guard starts the program in a child, tells the exit code handler how the child ended, and starts the next child exactly if the handler says so (always, if there is none). The guardian itself never runs the program.", "quantifier": "all sequences of child ends, all answers of the handler, all failures of fork and waitpid", "why_tests_cant": "all histories of crashes and failures", "anchors": ["demo/util/process_ctrl.cpp: ProcessCtrl::Guard"]}
{"id": "C147", "title": "A signal to the guardian ends its child, and nothing else", "statement": "When the guardian or a guarded program gets SIGINT, SIGQUIT or SIGTERM it ends; the guardian passes SIGINT on to the child that is running. No other process is signalled.", "quantifier": "all histories of starts and ends of children, all times of the signal", "why_tests_cant": "all histories and times", "anchors": ["demo/util/process_ctrl.cpp: ProcessCtrl::EndGuard, Guard"]}
{"id": "C148", "title": "stop and reload reach the running server", "statement": "Calling the web server with -stop sends SIGINT to the server that was started before, and to no other process, and starts nothing; -reload does the same and then starts a server.", "quantifier": "all contents of the pid file and of the configuration, all command lines", "why_tests_cant": "all file contents and histories", "anchors": ["demo/web-server/main.cpp: _main, RunWithConfig", "demo/util/process_ctrl.cpp: ProcessCtrl::Kill"]}
{"id": "C149", "title": "The web server does what its configuration says", "statement": "For every item of the configuration and the requests it is about, for the right host: a redirect is answered with 302 and the configured location, a static file with the contents of the file, a path below a static directory with the file of that name. The server listens on the configured address, with TLS if there is a certificate.", "quantifier": "all configurations, all requests, all file systems", "why_tests_cant": "all configurations and requests", "anchors": ["demo/web-server/main.cpp: RunWithConfig", "demo/web-server/config/config.hpp: Config", "src/cppnet/http/server/http_server.cpp: HttpGroup::GET, StaticDir, StaticFile"]}
{"id": "C150", "title": "In the modes with several threads every task keeps to its own connection", "statement": "Whatever a callback does with the socket it is given, and whatever the server does for it afterwards, reaches the connection the callback was called for, even if connections come and go in the meantime and the system gives their descriptor numbers to new connections.", "quantifier": "all schedules of the loop and the tasks, all numbers of connections, all reuses of descriptor numbers, all callbacks", "why_tests_cant": "all schedules and histories of connections", "anchors": ["src/cppnet/server/tcp_server.cpp: TcpServer::EventLoop, HandleRead, HandleLeave", "src/cppnet/http/server/http_server.cpp: HttpServer::HandleRead"]}
{"id": "C151", "title": "A message that cannot be parsed or built says why", "statement": "Whenever Parse or Build of a request or a response returns an error, err_msg() afterwards is a text that names what is wrong with this message, whatever was parsed before with the same object; if nothing is wrong they succeed and leave err_msg() alone. The server's 400 answer carries that text.", "quantifier": "all texts, all states of the object including earlier failures", "why_tests_cant": "all byte strings and all histories of the object", "anchors": ["src/cppnet/http/req/http_req.cpp: HttpReq::Parse, Build", "src/cppnet/http/resp/http_resp.cpp: HttpResp::Parse, Build", "src/cppnet/http/header/http_header.cpp: HttpHeader::Parse", "src/cppnet/http/req/route/http_route.cpp: HttpRoute::Parse", "src/cppnet/http/server/http_server.cpp: HttpServer::HandleRead"]}
{"id": "C152", "title": "A server that cannot start, or a client that cannot connect or send, says why", "statement": "If Init of a server, or Init, InitSSL or Send of a client, returns an error, err_msg() afterwards names what went wrong first: the system call that failed with the system's reason, the invalid address, the failed handshake with OpenSSL's reason, or what is wrong with the request or with what the server answered. If they succeed err_msg() is left alone.", "quantifier": "all answers of the system, all servers and modes, all requests, all byte streams received", "why_tests_cant": "all combinations of failing system calls and all streams", "anchors": ["src/cppnet/server/tcp_server.cpp: TcpServer::Init, CreateSocket, InitMode", "src/cppnet/server/io_multiplexing/epoll.cpp: Epoll::Init, MonitorSoc", "src/cppnet/http/server/http_server.cpp: HttpServer::Init", "src/cppnet/http/client/http_client.cpp: HttpClient::Init, InitSSL, Send", "src/cppnet/ssl/ssl_socket.cpp: SSLSocket::Connect"]}
{"id": "C153", "title": "The hello-world program answers every request", "statement": "The server of the README answers every complete request on a connection with exactly one answer, in order: a request for / with the page, status 200 and the right length, any other path with the 404 page; nothing else is written, no connection is closed, and the library's own parser reads the page back.", "quantifier": "all requests below 2 GiB with ASCII paths (methods, headers, queries, bodies), all numbers of requests on a connection, all bytes behind them, all header orders", "why_tests_cant": "all sequences of requests", "anchors": ["README.en.md: quick start", "demo/use-lib-server/main.cpp: main", "src/cppnet/http/server/http_server.cpp: HttpServer::HandleRead"]}
{"id": "C154", "title": "The demo server answers as its source asks", "statement": "simple-http-server answers every complete request with exactly one answer: GET / with the index file, /hello with its text, /world with the redirect, GET of another path with the file of that name in the directory if there is one, everything else (and every path with ..) with the 404 page.", "quantifier": "all requests with ASCII paths, all file systems whose files can be read, all bytes behind the request", "why_tests_cant": "all requests and file systems", "anchors": ["demo/simple-http-server/main.cpp: main", "src/cppnet/http/server/http_server.cpp: HttpGroup::GET, StaticFile, StaticDir"]}
{"id": "C155", "title": "The mnist program answers as its source asks", "statement": "The mnist program answers a posted picture of 28 times 28 numbers with the prediction as JSON, any other posted body with 400 and a JSON message, and GET / with its page.", "quantifier": "all bodies, all answers of the JSON library and of the network, all file systems", "why_tests_cant": "all bodies and requests", "anchors": ["demo/mnist/main.cpp: main, GetMnistResult, MnistResp", "src/cppnet/http/server/http_server.cpp: HttpGroup::POST, StaticFile"]}
{"id": "C156", "title": "Address::Init understands exactly the numbers-and-dots notation", "statement": "Init stores every text in the notation of inet_addr (one to four numbers, decimal, octal or hexadecimal, the last one filling the bytes that are left, anything after white space ignored) as the address it stands for, and every other text as 255.255.255.255. It always succeeds. GetIP gives the address as a dotted quad, which Init reads back as the same address.", "quantifier": "all byte strings, all ports", "why_tests_cant": "all texts", "anchors": ["src/cppnet/socket/address.cpp: Address::Init, Address::GetIP"]}
{"id": "C157", "title": "A Send returns the answer to its own request", "statement": "Whatever happened before on the client (requests that could not be built, Sends that timed out, reconnections), a Send that returns success has given back the answer to its own request.", "quantifier": "all histories of Sends in time, Sends whose answer is late, and Close followed by Init; all servers whose answers can be put on the wire", "why_tests_cant": "all histories", "anchors": ["src/cppnet/http/client/http_client.cpp: HttpClient::Send", "src/cppnet/http/client/http_client.hpp: HttpClient::socket", "src/cppnet/socket/socket.hpp: Socket::SetReadTimeout"]}
{"id": "C158", "title": "A task may use its own pool, and fails alone", "statement": "A task may call every function of the pool that runs it and gets its answer, and an exception that leaves a task costs that task only.", "quantifier": "all interleavings of any number of threads, all tasks, with any calls from inside tasks, and exceptions at any time", "why_tests_cant": "all interleavings", "anchors": ["src/cppnet/utils/threadpool.cpp: ThreadPool::Worker, ThreadPool::Stop, ThreadPool::Resize, ThreadPool::Init, ThreadPool::AddTask"]}
{"id": "C159", "title": "Host tells the machine's name and address", "statement": "GetLocalName returns the machine's name. GetLocalIP returns an address of the machine as a dotted quad that Address::Init reads as this address, or the empty text, so that an Address made of it is an address of this machine or cannot be made.", "quantifier": "all machine names Linux allows, all answers of gethostname and gethostbyname", "why_tests_cant": "all machines", "anchors": ["src/cppnet/utils/host.cpp: Host::GetLocalName, Host::GetLocalIP", "src/cppnet/socket/address.cpp: Address::Init"]}
{"id": "C160", "title": "A connection that cannot be accepted costs only itself", "statement": "When a connection cannot be accepted (the peer has given up, no descriptor is left) or the accepted descriptor cannot be watched, the callback is told, an accepted descriptor is closed, and everything else happens as if the connection had never been attempted; the event loop goes on.", "quantifier": "all servers, all histories of the event loop in every mode, all connections that fail at any moment", "why_tests_cant": "all histories", "anchors": ["src/cppnet/server/tcp_server.cpp: TcpServer::HandleAccept, TcpServer::EventLoop", "src/cppnet/socket/socket.cpp: Socket::Accept"]}
{"id": "C161", "title": "The programs of the README work", "statement": "The README's HTTP client gets the greeting of the README's HTTP server, in whatever order either writes its header lines. The README's socket client writes its greeting, reads the answer and closes the connection.", "quantifier": "all orders of the header containers, all answers of the system calls", "why_tests_cant": "all iteration orders and all system answers", "anchors": ["README.md", "src/cppnet/http/client/http_client.cpp: HttpClient::Send", "src/cppnet/socket/socket.cpp: Socket::Write"]}
{"id": "C162", "title": "A message costs no more memory than its sender has sent", "statement": "Whatever bytes a peer sends, the block of memory the library asks for to hold the body of a message is no larger than what that peer has sent, so that no peer can make a server (or a client) ask for memory by announcing it, and a program whose memory is limited is not ended by a message it has not received.", "quantifier": "all byte streams, handlers, requests, hash orders and amounts of free memory", "why_tests_cant": "a test machine has the memory; the sizes that end the program depend on what is free at that moment", "anchors": ["src/cppnet/socket/socket.cpp: Socket::Read", "src/cppnet/http/server/http_server.cpp: HttpServer::HandleRead", "src/cppnet/http/client/http_client.cpp: HttpClient::Send", "src/cppnet/http/header/http_header.cpp: HttpHeader::GetContentLength"]}
{"id": "C163", "title": "A line on the console is not torn", "statement": "Every line that a program logs to the console is shown whole: its tag, its message and the end of the line follow one another, whatever other threads log at the same time.", "quantifier": "all messages and levels, any number of threads, all interleavings of what they write", "why_tests_cant": "whether two threads write at the same time depends on the schedule", "anchors": ["src/cppnet/log/std_logger.hpp: StdLogger"]}
{"id": "C164", "title": "A line in a log file carries the time of its own call", "statement": "The time stamp that FileLogger writes before a message is the time at which this message was logged, also when other threads log to other files at the same moment.", "quantifier": "all clocks and time zones, any number of threads, all interleavings of the calls", "why_tests_cant": "the stamps differ only if two calls overlap and the second changes between them", "anchors": ["src/cppnet/log/file_logger.cpp: FileLogger::GetNowTime"]}
{"id": "C165", "title": "What a task captured is released once it has run", "statement": "When a task has returned, the pool destroys what the task had captured, once and soon; it never destroys it earlier, and the destructor may call the pool.", "quantifier": "all interleavings of any number of threads and workers, all tasks, all destructors that call the pool or not", "why_tests_cant": "when a capture is destroyed depends on what the pool does next; the blocked destructor needs a second task", "anchors": ["src/cppnet/utils/threadpool.cpp: ThreadPool::Worker", "src/cppnet/utils/threadpool.hpp: ThreadPool"]}
{"id": "C166", "title": "A handler may register further handlers", "statement": "A handler may call RegisterHandler while it serves a request: the request is served by the handlers that were registered before it, and the new ones serve the requests after it.", "quantifier": "all routing tables, handlers, paths and registrations", "why_tests_cant": "which registrations disturb the search depends on the paths that are registered already", "anchors": ["src/cppnet/http/server/http_server.cpp: HttpGroup::RegisterHandler, HttpServer::HandleRead", "src/cppnet/utils/trie.cpp: Trie::SearchNode, Trie::ForkNode"]}
{"id": "C167", "title": "The settings of an event loop hold for its next wait", "statement": "After set_max_event_num(n) each wait of the event loop reports up to n events, after set_wait_timeout(t) it lasts t milliseconds at most (for ever if t is negative), whenever and however often they are called.", "quantifier": "all histories of settings and waits, all numbers, all three platforms", "why_tests_cant": "a wait that lasts for ever is not seen to end; one machine has one platform", "anchors": ["src/cppnet/server/io_multiplexing/io_multiplexing_base.hpp: set_max_event_num, set_wait_timeout", "src/cppnet/server/io_multiplexing/epoll.cpp: Epoll::Loop", "src/cppnet/server/io_multiplexing/kqueue.cpp: KQueue::Loop", "src/cppnet/server/io_multiplexing/select.cpp: Select::Loop", "src/cppnet/server/io_multiplexing/io_multiplexing_factory.cpp: CreateDefault"]}
{"id": "C168", "title": "A bound on the events of a wait starves no socket", "statement": "With set_max_event_num(n), n positive, a socket that is ready while i others are before it is reported by one of the next i / n + 1 waits, even if the others are always ready again.", "quantifier": "all numbers of ready sockets, all bounds, all later events", "why_tests_cant": "starvation is a property of infinite runs", "anchors": ["src/cppnet/server/io_multiplexing/epoll.cpp: Epoll::Loop", "src/cppnet/server/io_multiplexing/io_multiplexing_base.hpp: set_max_event_num"]}
{"id": "C169", "title": "The last helper that was called decides the response", "statement": "If several handlers of a request call helpers of the response (NotFound, Redirect, Success, Json, Text, ...), the response that is sent is the one of the last call, as if the others had not been made.", "quantifier": "all sequences of calls of the helpers, of Clear and of assignments to header fields", "why_tests_cant": "what an earlier call leaves behind shows only in some combinations", "anchors": ["src/cppnet/http/resp/http_resp.cpp: HttpResp::NotFound, HttpResp::Redirect, HttpResp::Success, HttpResp::Clear", "src/cppnet/http/resp/http_resp.hpp: HttpResp"]}
{"id": "C170", "title": "Copies of a socket reach one connection and close it once", "statement": "Socket objects are copied freely: the event callback gets a copy, Accept returns one by value. A call through any socket variable or copy of it makes its system calls on the connection that variable was made for and on no other, even when descriptor numbers are used again, and every descriptor the variables were given is closed exactly once.", "quantifier": "All numbers of variables, all histories of member calls, copies, accepts and descriptors opened elsewhere in the process, and all answers of the system.", "why_tests_cant": "Whether a call reaches a connection opened later under the same number depends on the whole history of copies, closes and openings.", "anchors": ["src/cppnet/socket/socket.hpp: Socket", "src/cppnet/socket/socket.cpp: Socket::Init, Socket::Accept, Socket::Close"]}
{"id": "C171", "title": "Socket timeouts mean what was asked on every system", "statement": "After SetReadTimeout(sec, usec) a read that gets no data returns an error after sec seconds and usec microseconds, after SetWriteTimeout a write does, (0, 0) waits for ever, and the other direction is left alone, on Linux, macOS and Windows alike.", "quantifier": "All systems, all values of the two arguments, and all histories of the two calls.", "why_tests_cant": "A test runs on one system with a few values; the claim is about every value and every system the library is built for.", "anchors": ["src/cppnet/socket/socket.cpp: Socket::SetReadTimeout, Socket::SetWriteTimeout, Socket::SetSockOpt"]}
{"id": "C172", "title": "Values of several types in one trie", "statement": "In a trie that holds values of several types, Get<T>(key) returns the value the last Set stored there if that value has type T, throws std::bad_any_cast if it has another type, and returns null if nothing is stored under the key; Search<T> calls its callback with the values stored under the prefixes of the word, shortest first, and throws at the first one of another type.", "quantifier": "All histories of Set and Reset with values of any types and ASCII keys, all ASCII keys and words, all types asked for and callbacks.", "why_tests_cant": "The type test is applied to whatever node the lookup ends at, so the result depends on all the keys stored and the types of their values.", "anchors": ["src/cppnet/utils/trie.hpp: Trie::Get, Trie::Set, Trie::Search"]}
{"id": "C173", "title": "The log shows when a connection came and when it went", "statement": "Each connection that an HttpServer takes in has exactly one message in the log that says it was accepted, the first about it, and exactly one that says it was left, the last about it; both name the peer's address and the descriptor, whatever the client sends in between.", "quantifier": "All servers, connections, requests, answers of the system and ways in which a connection ends, in the I/O multiplexing and the multi-thread mode.", "why_tests_cant": "A connection can end in many ways at any point of any request, and the client chooses part of what is logged.", "anchors": ["src/cppnet/http/server/http_server.cpp: HttpServer::HandleAccept, HandleLeave, HandleError, HandleRead", "src/cppnet/server/tcp_server.cpp: TcpServer::HandleAccept, HandleLeave, HandleError, EventLoop"]}
{"id": "C174", "title": "A signal during a read changes nothing", "statement": "When the program handles a signal while a request or a response is being read, the request is served, or the response delivered, as if the signal had not come.", "quantifier": "All requests and responses, and all moments at which signals come, with handlers that restart interrupted calls and handlers that do not.", "why_tests_cant": "A signal can come at any moment of any read; a test does not hit the moment between two bytes of a body.", "anchors": ["src/cppnet/socket/socket.hpp: Socket::IORead", "src/cppnet/socket/socket.cpp: Socket::ReadUntil, Socket::Read", "src/cppnet/http/server/http_server.cpp: HttpServer::HandleRead", "src/cppnet/http/client/http_client.cpp: HttpClient::Send"]}
{"id": "C175", "title": "A call returns 0 on success and -1 on failure", "statement": "Every function of the API whose documentation says that it returns 0 on success and -1 on failure (parsing and building messages, files, addresses, sockets, servers, clients, TLS contexts) returns one of these two values.", "quantifier": "all objects, texts, file systems, system answers and histories of events", "why_tests_cant": "A test compares the result of the failures it provokes with what the code returns today; that no input, state or system answer gives another value is a statement about all of them.", "anchors": ["src/cppnet/utils/const.hpp: RC", "src/cppnet/http/req/http_req.hpp: HttpReq::Parse, Build", "src/cppnet/http/header/http_header.hpp: HttpHeader::Parse", "src/cppnet/http/client/http_client.hpp: HttpClient::Init, Send", "src/cppnet/utils/file.hpp: File", "src/cppnet/server/tcp_server.hpp: TcpServer::Init, EventLoop, WakeUp", "src/cppnet/http/server/http_server.hpp: HttpServer::Init, InitSSL, Run", "src/cppnet/ssl/ssl_context.hpp: SSLContext", "src/cppnet/socket/socket.hpp: Socket", "src/cppnet/socket/address.hpp: Address"]}
{"id": "C176", "title": "What a running server says about a failure is about that failure", "statement": "A callback that is called with an error event, and a caller whose EventLoop, AddSoc, Stop or WakeUp returned an error, finds in err_msg() the reason of this failure, not nothing and not the reason of an earlier one.", "quantifier": "all servers, sequences of waits and reports, system answers and texts, actions of the callback and previous messages", "why_tests_cant": "A test that provokes one failure sees a message; whether it is the message of this failure depends on everything that failed before in the life of the server.", "anchors": ["src/cppnet/server/tcp_server.cpp: TcpServer::HandleAccept, HandleError, EventLoop, AddSoc, Stop, WakeUp", "src/cppnet/server/io_multiplexing/epoll.cpp: Epoll::Loop, MonitorSoc", "src/cppnet/server/tcp_server.hpp: TcpServer::err_msg"]}
{"id": "C177", "title": "Clients that stay connected keep neither other clients nor Run waiting", "statement": "A client that connects to a server in several threads is served although other clients are connected and send nothing, and after Stop the call of Run returns although clients are still connected.", "quantifier": "all numbers of workers, with and without TLS, all schedules of the loop, the workers and the thread that calls Stop, all times at which clients connect, send and leave", "why_tests_cant": "It depends on how long clients stay connected, which has no bound: a test with a few clients that leave again sees every one of them served.", "anchors": ["src/cppnet/server/tcp_server.cpp: TcpServer::EventLoop, HandleAccept, Stop", "src/cppnet/http/server/http_server.cpp: HttpServer::HandleAccept, HandleRead, Run, Stop", "src/cppnet/utils/threadpool.cpp: ThreadPool::Worker, Stop"]}
{"id": "C178", "title": "A call may be given a text of the object itself", "statement": "A call that takes a text by reference (Parse, Build, POST, Redirect, Text, BadRequest, ...) does the same with a text of the object itself, as body(), header()[key] and route()[key] hand it out, as with a copy of that text.", "quantifier": "all requests, responses, headers and routes, all of their texts, all orders of the hash maps", "why_tests_cant": "The result depends on the order in which a function stores and looks, for every text; a test passes a string of its own.", "anchors": ["src/cppnet/http/req/http_req.cpp: HttpReq::Parse, Build, POST", "src/cppnet/http/resp/http_resp.cpp: HttpResp::Parse, Build, Redirect, BadRequest, InternalServerError", "src/cppnet/http/req/route/http_route.cpp: HttpRoute::Parse, operator[]", "src/cppnet/http/header/http_header.cpp: HttpHeader::Parse, operator[]"]}
{"id": "C179", "title": "A server tells of every firing of a timer that it watches, once", "statement": "When a timer was given to a server with AddSoc, the server's callback is called for its firings: never without a firing that was not yet read, no firing is lost, and reading the number of firings does not wait.", "quantifier": "all periods, all times at which waits return and callbacks read, both trigger types, all numbers of rounds", "why_tests_cant": "The number of calls depends on when the loop and the callbacks run relative to the firings, for ever; the project's test counts calls for ten milliseconds and accepts 91 to 109.", "anchors": ["src/cppnet/server/tcp_server.cpp: TcpServer::AddSoc, HandleRead, EventLoop", "src/cppnet/server/io_multiplexing/epoll.cpp: Epoll::MonitorSoc, Loop", "src/cppnet/timer/timer.cpp: TimerSocket::Init, Reset", "src/cppnet/timer/timer.hpp: TimerSocket::IORead", "src/cppnet/../../README.md: the timer server"]}
{"id": "C180", "title": "A server that reads in pieces gets all that was sent", "statement": "A TcpServer callback that calls Read(buf, len) at every read event gets, piece by piece, exactly the bytes that the client sent, in order, for every positive len.", "quantifier": "all texts, all cuts into sends and pieces, all positive lengths, all orders of sends and rounds, both trigger types", "why_tests_cant": "What is lost depends on how the sends, the waits of the loop and the lengths of the reads fall together; a test sends one short text.", "anchors": ["src/cppnet/server/tcp_server.cpp: TcpServer::HandleRead, HandleLeave", "src/cppnet/server/io_multiplexing/epoll.cpp: Epoll::MonitorSoc, Loop", "src/cppnet/socket/socket.cpp: Socket::Read", "src/cppnet/../../README.md: the TCP server"]}
{"id": "C181", "title": "A static handler logs what it did, once", "statement": "Each call of a handler made by StaticDir or StaticFile that returns gives the logger exactly one message, which names the file or path: Info exactly if the response is the file, a warning exactly if there is no such file or the path is refused, an error exactly if the file cannot be opened. A call that throws logs nothing, and logging does not change the response.", "quantifier": "all file systems, mount points, directories, files, requests and contexts", "why_tests_cant": "The message has to agree with the response on every path through the handler and for every answer of the file system; the tests do not look at the log.", "anchors": ["src/cppnet/http/server/http_server.cpp: HttpGroup::StaticDir, StaticFile", "src/cppnet/utils/file.cpp: File::Exist, Read, Suffix", "src/cppnet/log/logger.hpp: Logger::Info, Warn, Error"]}
{"id": "C182", "title": "A file that other programs change meanwhile is as it was at one time", "statement": "While Create, Remove or a static handler works, other programs may change the file system. The call still has an outcome that it could have had if the file system had stood still at one of the times during the call: a static handler answers with the file, or that there is none, and does not throw; Create does not empty a file; Remove does not remove a directory and reports success if the file is gone.", "quantifier": "all file systems at each of the system calls, all paths, everything other programs do between two system calls", "why_tests_cant": "The outcome depends on what other processes do between two system calls; a test has the file system to itself.", "anchors": ["src/cppnet/utils/file.cpp: File::Exist, Create, Remove, Read", "src/cppnet/http/server/http_server.cpp: HttpGroup::StaticDir, StaticFile", "src/cppnet/log/file_logger.cpp: FileLogger::Init"]}
{"id": "C183", "title": "A symbolic link stands for what it points to", "statement": "Every function of File, given a path with symbolic links in it, does what it does for the place the path leads to, and Remove removes the link itself and nothing else; a function that cannot reach the place reports it by its result. The static handlers serve what a link leads to.", "quantifier": "all trees of files, directories, links and closed directories, all paths, all data and answers of the system", "why_tests_cant": "Links can be chained, can lead through other links, in circles or nowhere; the tests have no links.", "anchors": ["src/cppnet/utils/file.cpp: File::Read, Write, Append, Exist, IsFile, IsDir, Create, Remove, CanWrite, LineCount", "src/cppnet/log/file_logger.cpp: FileLogger::Init", "src/cppnet/http/server/http_server.cpp: HttpGroup::StaticFile"]}
{"id": "C184", "title": "Requests leave nothing behind", "statement": "However long a server runs and whatever its clients send, the registry of content types that all servers of the program share keeps every entry it has, gets at most one more (an empty one for the empty suffix), and static files with a suffix are answered as on the first day, as long as the program's own handlers leave the registry alone.", "quantifier": "all servers that registering calls make, all sequences of reports on any number of connections, all file systems meanwhile, all bytes received", "why_tests_cant": "A request can only be seen to leave something behind when every history of requests is considered; the tests send one or two.", "anchors": ["src/cppnet/http/server/http_server.cpp: HttpServer::HandleRead, HttpGroup::StaticDir, HttpGroup::StaticFile", "src/cppnet/http/header/http_header.cpp: ContentTypeUtil::ConvertToStr, ConvertFileType"]}
{"id": "C185", "title": "A pool that is refused threads works with those it has", "statement": "When the system has no more threads, Init and the constructor of ThreadPool let the caller know; the pool goes on with the threads it got (no accepted task is lost or run twice, a free worker takes the next task, Stop and the destructor wait for them), it can be given the missing threads later, and it accepts no task that will never be run.", "quantifier": "all numbers asked for and refused, all calls by any number of threads, all schedules", "why_tests_cant": "The system refuses a thread at an arbitrary point of the loop, while the threads already started run; no test can make it do so.", "anchors": ["src/cppnet/utils/threadpool.cpp: ThreadPool::Init, Resize, AddTask, Stop, Worker", "src/cppnet/utils/threadpool.hpp: ThreadPool::ThreadPool"]}
{"id": "C186", "title": "The times in a log file sort as the clock", "statement": "Of two lines that a FileLogger writes at different seconds, the one logged later carries the time that sorts later as text; equal times mean the same second; and the times in the file never go back.", "quantifier": "all times of a year of four digits, all time zones, all messages and levels, all histories of a logger and schedules of its thread", "why_tests_cant": "The format has to be right at the ends of months, years, leap days and changes of the clocks; a test sees only the time at which it runs.", "anchors": ["src/cppnet/log/file_logger.cpp: FileLogger::GetNowTime, Debug, Info, Warn, Error, Fatal"]}
{"id": "C187", "title": "An Init of a FileLogger that fails leaves the logger as it was", "statement": "If Init fails, be it because of its file or for lack of memory, the logger goes on as before: one that was never initialised ignores messages and can be initialised later, a running one keeps writing to its file, and Stop and the destructor return.", "quantifier": "all files and what is at their names, all histories of failed calls, all messages, all schedules of the logger's thread, all points at which memory runs out", "why_tests_cant": "The harm shows only later, in a flush or in Stop, and depends on what was still in the buffers; memory can run out at any buffer.", "anchors": ["src/cppnet/log/file_logger.cpp: FileLogger::Init, Stop, CheckFlush, FlushBuffer", "src/cppnet/utils/file.cpp: File::Create, CanWrite, Append"]}
{"id": "C188", "title": "A server that is refused threads can be put away", "statement": "If the system refuses a thread while Init starts a server in multi-thread or mixed mode, Init reports it, and afterwards the server can be stopped, cleaned, destroyed or initialised again without a crash, and nothing it opened stays open.", "quantifier": "all servers that hold no multiplexer, all addresses, all answers of the system to the calls of Init, all descriptors open elsewhere in the process", "why_tests_cant": "The refusal depends on the limits of the machine at the moment Init is called; a test would have to make pthread_create fail.", "anchors": ["src/cppnet/server/tcp_server.cpp: TcpServer::Init, InitMode, Stop, Clean, ~TcpServer", "src/cppnet/utils/threadpool.cpp: ThreadPool::Init"]}
{"id": "C189", "title": "A TLS client knows who is at the other end", "statement": "When an HTTPS client's connection succeeds, the server at the other end is the one that was asked for: it shows a certificate that the machine has reason to believe, for the name that was asked for, and holds its key.", "quantifier": "all peers with any certificates, all sets of trusted certificates, all histories of calls on a TLS context, all answers of the system", "why_tests_cant": "A test connects to a server that is what it says it is; the property is about every other one.", "anchors": ["src/cppnet/ssl/ssl_context.cpp: SSLContext::Init, InitCli, InitSvr, InitSvrFile, CreateSSLSocket", "src/cppnet/ssl/ssl_socket.cpp: SSLSocket::Connect", "src/cppnet/http/client/http_client.cpp: HttpClient::InitSSL"]}
{"id": "C190", "title": "A log line reaches the file within the flush interval", "statement": "A line that was logged to a file logger is in the file when the flush interval (set_flush_interval_sec) is over, as soon as the logger's worker gets to run.", "quantifier": "all numbers and sizes of buffers, all intervals, all histories of logging calls and turns of the worker, all times at which they happen", "why_tests_cant": "Whether a line is written depends on what is logged afterwards and when; a test checks one history.", "anchors": ["src/cppnet/log/file_logger.cpp: FileLogger::CheckFlush, FlushBuffer, Init, Debug, Info, Warn, Error, Fatal", "src/cppnet/log/file_logger.hpp: FileLogger::set_flush_interval_sec"]}
{"id": "C191", "title": "A crash leaves a file as it was before or as it was to be", "statement": "If the program dies during File::Write, Append, Create or Remove, the file holds what it held before the call or what it would hold after it; no other file has changed, and calling the function again after a restart gives what it would have given.", "quantifier": "all file trees, paths, contents, ways the stream cuts the data into writes, and moments at which the program dies", "why_tests_cant": "The moment of the death lies between two system calls of one library call; a test cannot choose it.", "anchors": ["src/cppnet/utils/file.cpp: File::Write, File::Append, File::Create, File::Remove"]}
{"id": "C192", "title": "The exit status of the web server says whether it did its work", "statement": "The web server that is shipped exits with status 0 exactly if it did what it was asked to do: print the help or the version, signal the running server with -stop, or serve until it is stopped.", "quantifier": "all command lines, file systems, pid files, configurations and answers of the parser and the network", "why_tests_cant": "There are many ways to fail, and a script that starts the server relies on all of them; a test tries one.", "anchors": ["demo/web-server/main.cpp: main, _main, RunWithConfig", "demo/util/argc_deal.cpp: ArgcDeal::Run"]}
{"id": "C193", "title": "A crash costs the log only its last lines", "statement": "If the program dies, the log file holds all lines that were logged, in their order, up to some point; what is missing are the last lines, no more than a buffer takes, and no line whose logging call has returned.", "quantifier": "all numbers and sizes of buffers, intervals, histories of logging calls and turns of the worker, and moments at which the program dies", "why_tests_cant": "A crash comes at any moment of the two threads; a test can only stop the program where it likes.", "anchors": ["src/cppnet/log/file_logger.cpp: FileLogger::CheckFlush, FlushBuffer, Debug, Info, Warn, Error, Fatal"]}
{"id": "C194", "title": "A trie survives running out of memory", "statement": "If a Set on a trie runs out of memory, it throws and the trie is as before: every stored key is found with its value, Search finds what it found before, and later calls work as ever. If a Reset runs out of memory, the trie can still be used or destroyed.", "quantifier": "all histories of Set and Reset with keys of 7-bit characters, all places of a call at which an allocation may fail", "why_tests_cant": "An allocation may fail at any of the places of any call; a test cannot make each of them fail in each state of the tree.", "anchors": ["src/cppnet/utils/trie.cpp: Trie::SetNode, ForkNode, Reset, CleanMemory, GetNode, SearchNode", "src/cppnet/utils/trie.hpp: Trie::Set"]}
{"id": "C195", "title": "A logger that several MultiLoggers share gets each message once", "statement": "Loggers are shared objects: one may be given to several MultiLoggers, or several times to one. A message logged through a MultiLogger reaches every logger that it contains, directly or through other MultiLoggers, exactly once, in the order in which they were given.", "quantifier": "all graphs of loggers (sharing and containing themselves included), levels and messages, all stack sizes", "why_tests_cant": "the shapes that loggers can be put together in are unlimited", "anchors": ["src/cppnet/log/multi_logger.cpp: MultiLogger::Init, Debug, Info, Warn, Error, Fatal", "src/cppnet/log/multi_logger.hpp: loggers_"]}
{"id": "C196", "title": "A route that cannot be registered leaves the others alone", "statement": "If the registration of a route runs out of memory, it throws, and every request is answered as before; a registration that returns has its full effect, and later registrations do what they do without the failed one.", "quantifier": "all histories of registrations with routes of 7-bit characters, all places of a call at which an allocation may fail, all requests", "why_tests_cant": "An allocation may fail at any of the places of any registration after any history; a test cannot make each of them fail.", "anchors": ["src/cppnet/http/server/http_server.cpp: HttpGroup::RegisterHandler", "src/cppnet/utils/trie.cpp: Trie::SetNode, ForkNode"]}
{"id": "C197", "title": "A logging call that runs out of memory costs no other line", "statement": "If a call of a file logger throws because memory runs out, the logger goes on as before: when Stop or the destructor has returned, the file holds every line that was logged, each exactly once, the line of the call that threw at most once.", "quantifier": "all executions of a file logger, all schedules of its worker, all clocks, all places of a logging call at which an allocation may fail", "why_tests_cant": "An allocation may fail at each of the places of each call, in each state of the buffers and of the worker; a test cannot make them all fail.", "anchors": ["src/cppnet/log/file_logger.cpp: FileLogger::Debug, Info, Warn, Error, Fatal, CheckFlush, Stop, FlushBuffer"]}
{"id": "C198", "title": "A logger that nobody uses any more is closed", "statement": "When the program has given up its pointers to a MultiLogger and its loggers, every one of them is destroyed, exactly once, so that a file logger among them writes what it still holds.", "quantifier": "all sets of loggers that hold each other in whatever way, all sets of pointers that the program gives up, in every order", "why_tests_cant": "The loggers may hold each other in any way; a test has one arrangement.", "anchors": ["src/cppnet/log/multi_logger.hpp: MultiLogger::loggers_", "src/cppnet/log/multi_logger.cpp: MultiLogger::Init"]}
{"id": "C199", "title": "A pool whose program runs out of memory keeps the tasks it has", "statement": "If AddTask throws because memory runs out, the pool has not accepted the task and is otherwise as before: its mutex is free, every task for which AddTask returned 0 is still queued, in the hands of exactly one worker or finished, free workers go on to take tasks, Stop waits for what is running, and the program is not terminated.", "quantifier": "all executions of a pool with any number of threads calling it, all schedules, all sets of calls and of workers whose allocation fails", "why_tests_cant": "Any of the calls may fail at any point of any interleaving with the workers; a test cannot make each of them fail under each schedule.", "anchors": ["src/cppnet/utils/threadpool.cpp: ThreadPool::AddTask, ThreadPool::Worker, ThreadPool::Stop"]}
