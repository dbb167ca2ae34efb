# Formal model of chenxuan520/cppnet in Lean 4

`/repo` is read as text only; nothing is built or run. The model lives in `lean/Verif`:

| directory | contents |
|-----------|----------|
| `Verif/Cpp`    | the fragment of the C++ library the code uses: bytes, `std::string` (`find`, `substr`, `stoi`, `to_string`), `size_t` wrap-around, `unordered_map`, outcomes (value / exception / undefined behaviour / divergence) |
| `Verif/Model`  | the code, function by function; every definition cites file and lines |
| `Verif/Spec`   | small independent specifications in which the properties are phrased |
| `Verif/Proofs` | helper lemmas |
| `Verif/Props`  | the property theorems `Cxx_…`, each followed by an `example` that meets its hypotheses on a concrete case |

## Conventions

* A byte is `UInt8`, a string is `List UInt8`; so every theorem covers every byte value and every length.
* `Out α = Except Fault α`. `Fault` separates C++ exceptions (`outOfRange`, `invalidArgument`), undefined behaviour (`ub`), `std::terminate` and non-termination (`diverge`). A property that says "never throws" is the theorem that the model always returns `.ok`.
* `size_t` arithmetic is done modulo 2^64 wherever `npos` or a subtraction is involved. `std::string` lengths are below 2^63 (the library's `max_size`); where that matters it is an explicit hypothesis.
* `unordered_map` is an association list with distinct keys; whenever the code iterates over one, the order is an arbitrary permutation chosen by an oracle over which the theorem quantifies.
* Loops become structural recursion; a loop that may diverge is given fuel, with "ran out of fuel for every fuel" meaning divergence.
* Concurrency (`ThreadPool`, `FileLogger`, `TcpServer`) is a labelled transition system whose steps are the atomic actions of the code; theorems quantify over all reachable states (all schedules, all numbers of threads).
* When a property in `properties.jsonl` is false of the code, the file holds both the refutation (a concrete witness, name ending `_refuted`) and the strongest positive theorem found, under the exact condition (name ending `_partial`). `MANIFEST.json` then says `partial`.

## Plan per property

| id | model | proof |
|----|-------|-------|
| C01, C02 | `Split` with explicit `find`/`substr` loop and fuel | spec: `join`, occurrence; induction on the remaining text. Empty delimiter: no fuel suffices (refutes C02 as stated) |
| C03–C05 | `UrlEncode`, `UrlDecode` byte loops, out-of-range reads explicit | induction on the string, full 256-entry table per byte by kernel computation; C05: truncated escape accepted (refuted) + well-formed decode |
| C06 | the dp table row by row | invariant "row i, column j = glob relation on prefixes" |
| C07 | `Suffix` with `rfind` | characterisation of the last separator |
| C08–C12 | radix tree nodes, `ForkNode`, `SetNode`, `GetNode`, `SearchNode` | representation invariant + abstraction to a finite map; refinement for every operation; refutations for never-set keys (prefix hit) and bytes ≥ 0x80 |
| C13, C14 | the conversion tables | case analysis; custom map as association list |
| C15–C20 | `HttpHeader` | characterisation lemmas of `Split` and `find`; permutation induction for `ToString` |
| C21, C22 | `HttpRoute` | same |
| C23–C32 | `HttpReq`, `HttpResp` | same, plus size_t wrap-around for the misused `substr` count |
| C33–C36 | `Socket` over an abstract byte stream and a syscall trace | induction on the stream / on the call history |
| C37–C39 | `HttpClient::Send` and `HttpServer::HandleRead` composed through byte streams | uses the round trips |
| C40–C47 | `HttpGroup`/`HttpServer` registration and `HandleRead` | refinement to a routing table; refutations by concrete registrations |
| C48–C54 | thread pool transition system | inductive invariants; refutations by concrete schedules |
| C55–C59 | loggers; flusher as transition system | conservation invariant |
| C60–C64 | event dispatch, descriptor table | invariants over event sequences |
| C65 | `Address` | arithmetic; dotted quad printing/parsing |
| C66 | SSL read loop over arbitrary record sizes | induction |
| C67, C68 | `HttpContext`, `SetCookie` | induction on histories |
| C69 | `HttpResp::Parse` with `find`'s `npos + 4` wrapping to 3 | refuted for every unterminated text; holds without any CRLF |
| C70 | `HttpRoute::ToString` then `Parse` | escaped form comes back (refuted as stated) |
| C71–C73 | system-call traces of `Socket` and `SSLSocket` histories | invariants over histories: what was closed, freed, said goodbye to, and in which order |
| C74 | static handlers that use a group object after its life (`live` flag, UB outcome) | totality while it lives; refuted after |
| C75 | the result of the one `Write` of an answer | case analysis on the result |
| C76, C77 | host filter (regular expression = arbitrary predicate), URL → file name | exact acceptance; comparison of two file systems |
| C78–C80 | thread pool, histories of calls by any number of threads | inductive invariants on all reachable states |
| C81 | `set_level` of each logger | induction on trees of loggers |
| C82–C84 | file logger on top of the pool | lifted pool invariants; refuting schedules with "in every continuation" |
| C85–C89 | event loops of the three modes as functions of the answers of `epoll_wait`, `accept`, `epoll_ctl`; call histories | induction over answers and over calls |
| C90–C96 | TLS objects: sessions, contexts, the per-connection map of `HttpServer` | trace invariants "made, used, freed" by number |
| C97–C101 | `File` over a tree of paths and an adversarial system (refusals, short writes) | induction on call histories |
| C102–C104 | life of a `HttpClient`: calls made on sockets, contexts, resolver | trace invariants over histories |
| C105–C107 | `HandleRead` once per readable report; many connections; client and server connected | induction on reports; simulation by a connection that is alone |
| C108 | a worker blocked in `recv` | refuted: one event loop thread; with read timeouts, induction on the reports: the slow clients change nothing for the others (`C108_timeout_partial`) |
| C109 | `Connection` header of the request | case analysis on the answer of `HandleRead` |
| C110–C112 | TLS as a stream cut into records | every record cutting gives the plain result; refuted where a record holds two requests |
| C113–C117 | life of the `HttpServer` object | invariant of all call histories |
| C118–C120 | `timerfd` as base, period, expirations already read | arithmetic over all times; induction on reads |
| C121 | a queue of datagrams | induction on the queue |
| C122 | a peer's FIN and RST between writes, `SIGPIPE` | comparison with the run in which the peer stays |
| C123 | messages written by `HandleRead` | composed with `HandleRead` itself |
| C124–C127 | `select` (Windows), `kqueue` (macOS), against `epoll` | induction over actions and rounds |
| C128 | the conversation model (`Model/Conversation`) over any number of connections | induction over the reports; each request is served as alone (`complete_served`, `serve_aloof`) |
| C129 | `ReadUntil` called again with the same buffer | induction over the pieces of the stream |
| C130–C132 | `Send` and `HandleRead` on messages framed as RFC 9112 allows (`Spec/Interop`) | refuted for every framing but an exact `Content-Length`; exact result for that one |
| C133 | a handler whose outcome is an exception | refuted: the run of the server is that exception; handlers of other paths are not concerned |
| C134 | `Model/PoolAccess`: the plain members the next action of each thread reads and writes | lock invariant, invariant of the caller discipline; the access table is itself proved sound: a member changes only in a step said to write it, a step does not depend on members it is not said to read; refuted for refused `AddTask`s (error text), `Init` beside `AddTask`, two `Stop`s |
| C135, C136 | `Model/TrieHeap`: the trie with addresses, `new` and `delete`; using an address that is not alive is undefined | representation relation with footprints (no sharing) between heap and value; C136 refuted for every trie (the copy shares the nodes) |
| C137 | `Model/LogAccess`: the plain variables that the next action of the logger's thread and of its worker read and write | the file logger's invariant, weakened so that it survives every file system failure; the access table is proved sound for the buffer texts; refuted for the time of the last flush and for `Init` on a running logger |
| C138, C139 | `Model/ServerThreads`: the thread in `Run`, the tasks of the pool and a thread that calls `Stop` and the destructor, with the variables that each next action reads and writes | who touches what, by cases; invariants over all runs for the TLS locations, the table of content types and the stopped pool; refuted for the multi-thread mode (length of an address), TLS, custom content types, a `FileLogger`, `Stop`, and for a failed `accept` |
| C140, C141 | the setters of `HttpHeader` and `HttpRoute`, `operator[]` with its insertion | induction on call histories against "stored last since Clear" (`Spec/Builders`); `operator[]` refuted for every missing name |
| C142 | `HttpReq::GET`, `POST` | exact for new and cleared objects, composed with the round trip of C23; refuted for objects that are used again and for unencoded forms |
| C143 | `Model/File` | induction on call histories, with what each call does to one node |
| C144, C145 | `Model/ArgcDeal`: constructor, declarations, `Run`, the printed texts | induction on the arguments (first one wins) and on the declarations against `Spec/CommandLine`; C145 refuted for declarations before the program is assigned |
| C146, C147 | `Model/ProcessCtrl`: the rounds of `Guard` with the answers of `fork`, `waitpid` and the handler; `child_pid_` and who inherits it | induction on the rounds; refuted for the guardian that leaves `Guard`, for a failed `fork`, for the second child |
| C148, C149 | `Model/WebServer`: `_main`, `RunWithConfig`, the registrations of a configuration, on `Model/File` and `Model/HttpServer` | C148 by cases with the round trip of `to_string` and `stoi`; C149 from C40, C44, C76, C77; refuted for the shipped configuration |
| C150 | `Model/FdReuse`: descriptor table, tasks and loop of the multi-thread and mixed modes | invariant over all schedules for callbacks that do not close early; refuted for every read callback that closes |
| C151 | `Model/ErrText`: the parsers once more with their `err_msg_`; forgetting the texts gives the parsers of `Model/HttpMsg` | by cases on the shape of the text (`Spec/ErrText` lists what can be wrong), both directions |
| C152 | `Model/StartErr`: `err_msg_` of `Init`, `InitSSL` and `Send`, beside the models of what they do; the texts of `errno` and of OpenSSL are arbitrary | by cases on the answers of the system; refuted for a failing `epoll_ctl` (no reason), a failing handshake (`errno` instead of OpenSSL's reason) and a response cut inside its header ("empty") |
| C153, C154, C155 | `Model/Demos`: what the example programs register and their callbacks, on `Model/HttpServer`; the JSON library and the network of `mnist` are arbitrary functions | the table the code builds is computed (`tableRun_tab`, from C40), then by cases on the path and the files; C153 by induction on the requests; C155 refuted: a body that is no picture reads an uninitialised member, and `/` is 404 |
| C156 | `Model/Address` (glibc's `inet_addr`) against an inductive grammar of the notation | both directions by induction on the grammar and on the loop of the parser |
| C157 | `Model/LateAnswer`: `Send`s in time, late, and reconnections on the streams of `Model/Conversation` | exact: invariant "at most one answer is on its way", by induction on the history; refuted: after a timeout every `Send` is one behind |
| C158 | `Model/ThreadPool`: running tasks may call every pool function and may throw | exact: which calls return to a task (invariant: a task never gets past its own handle), `AddTask` and `GetBusyAndTaskNum` can always be answered; refuted: a task that throws, stops, resizes, re-initialises or destroys; a task that catches the exception of its own `Stop` leaves a pool that can never be destroyed (`Model/PoolCaught`, invariant) |
| C159 | `Model/Host`: the two functions over arbitrary answers of the system | exact case analysis, with C65 for the way back; refuted: a machine whose name is not found |
| C160 | `Model/TcpServer`: histories with and without the reports whose `accept` or `EPOLL_CTL_ADD` fails | simulation over rounds and reports: same end, same state, same other events; refuted for the multi-thread mode |
| C161 | `Model/Readme`: the client programs of the README, with the server of C155 | the two HTTP programs composed, over all hash orders; exact refutation of the socket client |
| C162 | `Model/Memory`: `HandleRead` and `Send` with the size of the largest block `new` can make | the block of a complete message is bounded by its length, every block by 2 GiB; refuted by a header without its body |
| C163 | `Model/LogThreads`: the `<<` operations of each call of the console logger, interleaved | one thread exactly; for several threads nothing is lost or invented; refuted by two calls that leave two tags on one line |
| C164 | `Model/LogThreads`: `GetNowTime` field by field, over the two static buffers that all threads share | invariant of the thread inside, over all clocks; refuted for every pair of times and every place of the seam |
| C165 | `Model/PoolHeld`: the pool of C48 with the variable `task` of each worker | every accepted task is released, kept or queued, exactly once (invariant over all executions); everything is released after `Stop` and after destruction; refuted while the pool is idle, and by destructors that call the pool |
| C166 | `Model/Reentrant`: the trie on the heap, `HandleRead` walking through it by pointer while handlers register others | if only exact handlers register, and only for paths without handlers, the request is served by the old table and the new table is the one the registrations give (simulation by values); same as `Model/HttpServer` if nothing is registered; refuted for the path being served and for handlers of prefixes |
| C167 | `Model/MuxSettings`: the two settings and what each wait asks the kernel for | induction over histories of settings and waits; refuted for a timeout of 0 on macOS, for Windows, for numbers that are not positive, and for numbers that do not fit on the stack |
| C168 | `Model/MuxSettings`: Linux's list of ready descriptors, of which a wait takes the first n | induction over the waits; the bound is sharp |
| C169 | `Model/RespCalls`: histories of calls on one response | induction over the calls: each of status, body and fields is what the last call said about it; refuted by the `Location` of an earlier `Redirect` and by `Success(type)`, which keeps the body of an error |
| C170 | Model/SockCopies: variables with the generation of the descriptor each was made for, over Model/Socket | invariant over histories: while no descriptor is closed through one copy and used through another, the reached generation is the variable's own; witnesses for a copy closed elsewhere and for Init called twice |
| C171 | Model/SockTimeout: what setsockopt makes of the timeval's bytes on each system | induction over the history of calls; witnesses for Windows and for negative values |
| C172 | Model/TrieAny: a node's data as std::any with the type it was made with, over Model/Trie | from the theorems about the trie of one type, with the cast put after the lookup |
| C173 | Model/ConnLog: the messages of HandleAccept, HandleLeave and HandleError around those of HandleRead (Model/AccessLog) | induction over the reports; the messages about requests begin otherwise; witnesses for the ways in which it fails |
| C174 | `Model/Signals`: a connection on which bytes and signals come in an order, `recv` with Linux's rules for interrupted calls, `ReadUntil`, `Read`, `HandleRead` and `Send` on it | induction on the arrivals against the reads without signals (C34, C35); refuted for signals inside a body and for handlers that do not restart calls; the client is proved sound |
| C175 | the existing models; the spec is two predicates on the result (`Spec/Codes`) | Refuted in general: what reads or writes texts and files never returns -1 but -2 (`C175_text_refuted`, `C175_file_refuted`), as do calls at the wrong time, or -3 (`C175_misuse_refuted`). Proved: the calls that do keep to it (`C175_documented_partial`), and that success is 0 and failures are negative everywhere (`C175_codes_partial`) |
| C176 | `Model/RunErr`: the loop of `Model/TcpServer` with the message beside it, the callbacks with the message each finds | The loop with messages makes the same callbacks as the loop without (`C176_callbacks_partial`). Refuted: a connection's error event (`C176_connection_refuted`), a connection that cannot be watched (`C176_watch_refuted`), `AddSoc` (`C176_add_refuted`). Proved by induction over the rounds: when only accepting fails every error callback finds its own reason (`C176_accept_partial`), and a loop that fails leaves the text of its wait (`C176_loop_partial`) |
| C177 | `Model/ServerThreads`: the loop, the queue of the pool, the workers and the tasks with the wait for the next request (`peek`) | Refuted in the multi-thread mode for every number of workers: with as many idle clients as workers a further connection waits for as long as they stay (`C177_waits_refuted`, by an invariant over all runs in which they stay), and one idle client keeps `Run` from returning after `Stop` (`C177_run_refuted`). Proved: connections are begun in the order in which they came and never more than there are workers (`C177_order_partial`), a free worker begins the first that waits (`C177_free_partial`), and so does the worker of a client that leaves (`C177_leaves_partial`); in the mixed mode an idle client costs no worker (`C177_mixed_partial`); once `Stop` has returned and no worker is busy `Run` returns by itself (`C177_returns_partial`) |
| C178 | `Model/Alias`: the functions with an argument that is asked for again wherever the code looks at it; with a constant they are the functions of the other models (by `rfl`) | Proved: `HttpResp::Parse`, `HttpHeader::Parse` and `HttpReq::Parse` of a parameter (`C178_parse_partial`), `HttpReq::Parse` of a header and `HttpRoute::Parse` of a parameter that the text does not change (`C178_request_header_partial`, `C178_route_partial`), `Build` into a parameter (`C178_build_partial`), `POST` and the helpers with named exceptions (`C178_helpers_partial`). Refuted: `req.Parse(req.body())` (`C178_request_refuted`), a header or parameter that the text names (`C178_request_header_refuted`, `C178_route_refuted`), `Build` into the body (`C178_build_refuted`, `C178_response_build_refuted`), the exceptions of the helpers (`C178_helpers_refuted`) |
| C179 | `Model/TimerWatch`: rounds of the epoll loop over the kernel timer of `Model/Timer` | Proved: with a callback that reads through a `TimerSocket`, without threads and with either trigger, the numbers add up to the firings, every call gets at least one and no read waits (`C179_firings_partial`), and there are no more calls than firings (`C179_calls_partial`). Refuted: for a callback that reads through the `Socket` that it is given it is called in every round (`C179_level_refuted`) or once for ever (`C179_edge_refuted`); in the mixed mode one firing queues many tasks that keep their workers waiting (`C179_mixed_refuted`) |
| C180 | `Model/Pieces`: one connection of the README's server, events of the peer and rounds of the loop, with `Socket::Read` of `Model/Socket` | Proved while the client stays: results add up to the bytes read, in order, and the texts are those bytes if none is zero (`C180_order_partial`); level-triggered everything is read after as many rounds as bytes wait (`C180_level_partial`); edge-triggered with a callback that reads until nothing is left, after every round (`C180_edge_partial`). Refuted: edge-triggered with one read (`C180_edge_refuted`), zero bytes (`C180_nul_refuted`), a length of 0 (`C180_zero_refuted`); a client that leaves is C60 |
| C181 | `Model/StaticLog`: the two lambdas with their messages | case analysis on what the system has under the name (`C181_file`, `C181_dir`, `C181_refused`); the responses are those of the handlers without messages (`C181_same`). That a message can be more than one line is C123 (`C123_static_forged_refuted`) |
| C182 | `Model/Meanwhile`: each system call has its own file system (static handlers), or others change the tree between two calls (`Create`, `Remove`) | **refuted** (`C182_static_refuted`, `C182_create_refuted`, `C182_remove_refuted`); positive: the static handlers have the answer of one of the three times, or 404 if the file had gone, unless there is something other than a file at the end (`C182_file_partial`, `C182_dir_partial`), `Create` keeps content if others leave this name alone (`C182_create_partial`), `Remove` touches no other name (`C182_remove_partial`), and nothing differs when nothing changes (`C182_same_partial`) |
| C183 | `Model/Links`: the walk of the system along a path in a tree with links and directories that may not be searched, and the functions of `File` on it | induction over the walk: paths that lead to one place get the same results (`C183_same_partial`); without links the functions are those of `Model/File` (`C183_plain_partial`, with an induction over the directories that `Create` makes); `C183_remove_partial`, `C183_static_partial`. **refuted** for links to free names (`C183_dangling_refuted`) and for names the system does not resolve (`C183_refused_refuted`, `C183_circle_refuted`) |
| C184 | the model of C105–C107; `Spec/Traces`: the handlers given to the registering calls, and which of them leave the registry alone | an invariant of the registry carried through the search of the trie, the handlers, `HandleRead` and all reports: `C184_registry`, `C184_same_answer` (that files without suffix do not get the same answer is `C107_content_type_refuted`) |
| C185 | `Model/ThreadLimit`: the pool of C48 with one more action, the exception that leaves `Init` instead of a new thread; the constructor with the destructors of the members | the refusal is, for the invariants of the pool, the end of `Init`: `C185_once_partial`, `C185_progress_partial`, `C185_stop_partial`, `C185_destroy_partial`. **refuted**: without any thread `AddTask` accepts what nobody will run (`C185_none_refuted`), a second `Init` terminates the program (`C185_again_refuted`), `Resize` to the number wanted does nothing (`C185_resize_refuted`), a refusal inside the constructor terminates the program (`C185_constructor_refuted`) |
| C186 | `Model/LogClock`: `strftime` with the format of the code, on the calendar and zones of `Spec/Calendar`; the logger of C55 | the calendar goes forward (induction on days), fields of fixed width sort as numbers: `C186_order_partial`, `C186_second_partial`; with C56 for the file: `C186_file_partial`. **refuted** where the clocks on the wall are set back: `C186_back_refuted`, `C186_twice_refuted` |
| C187 | `Model/LogInit`: the logger of C55 with `file_path_` and any number of files; the buffers of an interrupted `Init` | induction on histories, with C57: `C187_first_partial`; `C187_memory_partial`. **refuted** for a running logger (`C187_running_refuted`) and for memory that runs out earlier (`C187_memory_refuted`) |
| C188 | `Model/StartThreads`: what is left of the server when the exception leaves `Init`; the rest is the server of C30 | case analysis: `C188_destroy_partial` (multi-thread), `C188_clean_partial`, `C188_again_partial`. **refuted** for the mixed mode (`C188_mixed_refuted`) and for a second `Init` without `Clean` (`C188_again_refuted`) |
| C189 | `Model/TlsPeer`: what a context asks of peers, over a history of calls; the handshake is OpenSSL's, from its manual | case analysis and induction over the calls: `C189_key_partial`, `C189_given_partial` (contexts that verify, made by the user). **refuted** for `HttpClient` (`C189_client_refuted`) and for contexts the library makes (`C189_own_refuted`) |
| C190 | `Model/LogAge`: the buffers, their times and the worker's tasks, with a clock | invariant over histories: `C190_next_call_partial` (the next message brings everything that is old to the file). **refuted** if nothing else is logged (`C190_quiet_refuted`) and if the clock is set back (`C190_clock_refuted`) |
| C191 | `Model/FileCrash`: each function as the list of system calls that change something; the program dies after any number of them | over all prefixes of the list: `C191_same_partial` (without a death the calls give the model of C97 to C100), `C191_write_partial` (old content or a beginning of the new), `C191_write_again_partial`, `C191_append_partial`, `C191_append_single_partial` (all or nothing if handed over in one piece), `C191_remove`, `C191_create_partial`. **refuted** for `Write` (`C191_write_refuted`) and for `Append` in pieces (`C191_append_refuted`) |
| C192 | `Model/WebStatus`: the whole program of C148 and C149 with its exit status | by cases over all ends of the program: `C192_done_partial` (success gives 0), `C192_refused_partial`, `C192_status_partial` (the only other ends are 255 for a configuration that the parser refuses and an abort when a file cannot be read). **refuted**: a missing configuration, a bad certificate, a taken address, a missing static file (`C192_failed_refuted`) and a useless pid file (`C192_stop_refuted`) give 0 |
| C193 | `Model/LogAge`, cut off after any history (the write itself: C191) | invariant over histories (file, then the worker's buffers in the order of its tasks, then the current buffer, give what was logged): `C193_lost_partial` (always the first lines, and at most one buffer is lost if the worker has caught up). **refuted**: the message of a call that has returned is not in the file (`C193_last_refuted`), and a worker that is behind loses any number (`C193_behind_refuted`) |
| C194 | `Model/TrieMemory`: `Model/Trie` where each object and each text may fail to be made; for `Reset` `Model/TrieHeap` | the invariant of `Proofs/Trie` without its last part (values or two children), induction over the key and the history: `C194_kept_partial`, `C194_throws_partial` (objects). **refuted** for long texts (`C194_lost_refuted`, `C194_missed_refuted`) and for `Reset` (`C194_reset_refuted`) |
| C195 | `Model/LogGraph`: loggers as objects in memory that point to each other, calls on a stack of limited depth | induction over the depth: `C195_ways_partial` (once per way, in lexicographic order of the places), `C195_once_partial` (once if nothing is shared). **refuted**: shared loggers get a message 2 ^ n times, a `MultiLogger` that contains itself overflows every stack |
| C196 | `Model/ServerMemory`: `RegisterHandler` on top of `Model/TrieMemory` | C194's invariant kept by the registrations, search determined by what is stored: `C196_routes_partial` (objects); with enough memory the model is that of `Model/HttpServer`: `C196_enough`. **refuted** for long routes (`C196_lost_refuted`) and for later registrations (`C196_later_refuted`) |
| C197 | `Model/LogMemory`: `Model/FileLogger` and the four places of a logging call that may throw | a call that throws leaves a state that behaves as one without the mark on the current buffer (simulation), which keeps the invariant of C55: `C197_kept_partial`. **refuted** for the text of a new buffer (`C197_room_refuted`) |
| C198 | `Model/LogOwners`: the objects of `Model/LogGraph` with the counts of their `shared_ptr`s and the destructors of these | the count of an object is the number of pointers to it among those that are left (induction over the releases): `C198_closed_partial` (no cycle). **refuted** for cycles (`C198_cycle_refuted`) |
| C199 | `Model/PoolMemory`: the pool of C48 with two more actions, the exception of `push` that leaves `AddTask` and the one of the copy that leaves a worker | the exception is, for the invariants of the pool, the end of `AddTask`; the calls that returned 0 are counted against the tasks accepted: `C199_once_partial`, `C199_threw`, `C199_progress_partial`, `C199_stop_partial`, `C199_destroy_partial`. **refuted** for a worker that cannot copy its task (`C199_worker_refuted`) |

No property of the list is `not_applicable`: each has theorems. What every theorem says, where it is and which axioms it
uses is listed in `THEOREMS.md` (generated by `tools/report.py`).

## Where the code and the properties disagree

Each disagreement is a theorem ending in `_refuted`, with a concrete witness (or, where possible, for every input of a
class), and a positive theorem ending in `_partial`. The ones a user meets first:

* Crashes from the network: one line feed as the first bytes of a request (C45, C46), a byte above 127 in the path (C11, C46),
  a component that is too long below a static directory (C46), two pipelined requests from a client that hangs up (C122).
* Routing: a handler on a prefix of an earlier path takes its place; `GET` and `POST` do not look at the method; `Abort` does not
  stop the chain; of two handlers on one path of a group one is lost; group middleware runs for all requests (C40–C42).
* Messages: an empty header value becomes something else (C17); header values and paths can inject (C24, C25); an unterminated
  response is accepted (C69); two cookies become one line (C68); a truncated body is served as complete (C47).
* Other peers: a header name in other case is not found (C132); a body with `content-length` or chunked coding is not read and its
  bytes are the next request (C131) or the next response (C130); an exception of a handler ends the server (C133).
* Sockets: data that arrived just before a close is not delivered (C60); `ReadPeek` on TLS consumes (C72); the descriptor is
  closed before the TLS goodbye (C73); option setters act on closed numbers (C71).
* Thread pool and logger: `Stop` can hang (C52, C82) and drops accepted tasks (C51); after `Resize` the pool refuses everything
  and its destruction terminates the program (C53); a copied trie is freed twice (C136); a stopped and restarted logger cannot be destroyed (C83); a full disk loses
  lines silently (C57, C97); two threads whose tasks are refused race for the error text (C134);
  the file logger's worker stores the time of a flush after it has marked the buffer as free, so that the logging thread may
  read it at the same time (C137).
* Servers: stopping leaks connections (C61), multi-thread mode closes none (C62), the epoll loop is not woken by `Stop`
  (C85), edge triggering is never used (C86), mixed mode runs two tasks for one connection (C87). In the modes with several
  threads the map of the TLS sessions, the table of custom content types, the buffers of a `FileLogger` and the flags that `Stop`
  clears are used without a lock, and so is the length of an address, one variable of the process that every `accept` and every
  question for a peer's address sets (C138; it always gets the same value); after a failed `accept` `Run` returns while handlers go on, and the destructor then frees
  the routes before it waits for them (C139). A read callback that closes its socket, as the HTTP server does, makes the task
  read from and close the next connection that gets the same number (C150).
* TLS: sessions of failed connections are leaked (C96), `InitSvr` sets no key (C92), a handshake that was shut down counts (C91),
  a second request in the same record is not answered (C111).
* Timers: zero, negative or too large periods are reported as success and never fire (C120); reading 256 expirations as a
  string gives the empty string (C119).
* Other systems: `select` watches 64 sockets and silently no more (C124) and skips a socket after a removal (C125);
  `kqueue` ends the loop on a signal, as the multi-thread mode does (C126), and reports a leave before unread data (C127).
* Requests: (C141, C142) `operator[]` inserts what it does not find, so reading a header sends an empty one. `GET` and `POST` do not clear the
  request object: parameters, headers and body of the request before are sent again, form bodies are glued together, and a `POST` with no
  parameters cuts a byte off the old body. Names and values of a form are not encoded.
* `File::Read` of a directory (or of a file the system fails to deliver) throws with libstdc++ instead of returning a code (C97); the web server
  dies of it when `-config` names a directory (C149).
* The shipped web server: with its own `config.json` `GET /` is 404 and `/hello` is the index page instead of a redirect (C149, because of C40
  and C42); `-stop` does not stop a server in the foreground, and starts one if there is no pid file, signals whoever has the number after the server has ended; `-reload` with a bad configuration ends the server and starts none (C148); after a normal end of its child
  the guardian serves itself (C146); after a failed `fork` it sends SIGINT to every process, and a restarted child signals the number of its dead elder (C147).
* Error texts: `Init` says `[syserr]:` and nothing else if the listening socket cannot be watched; a failed TLS handshake is reported with the text of
  `errno`, because the static `Socket::err_msg` hides the one of `SSLSocket`; a response cut inside its header is called empty (C152).
* The `mnist` program does not serve its page: `StaticFile("/")` after `POST("/mnist")` is attached to `/mnist`. For a body that is no
  picture it writes `MnistResp::result` into the answer without ever having set it (C155).
* After a `Send` that timed out (`client.socket().SetReadTimeout`), the connection stays open and the late answer stays in it: the next `Send` returns it with
  success as the answer to another request, and so on, one behind, until the client is closed (C157).
* Thread pool: an exception that leaves a task ends the program; a task that calls `Stop` on its running pool, `Resize` to another size,
  `Init` or the destructor never gets back from the call: it ends the program when it joins or destroys its own thread (C158). If it catches the exception instead, the pool refuses every new task and can never be destroyed without ending the program.
* `GetLocalIP` returns the empty text when the machine's name is not found, and `Address::Init` makes 255.255.255.255 of it without an error (C159).
* Multi-thread mode: the first `accept` that fails ends the event loop; the listening socket stays open and the pool runs on (C160).
* The README's socket client takes the number of bytes that `Write` returns for an error: after a successful `Write` it prints "write wrong", returns 11, and neither reads nor closes (C161).
* The block for a body is made when the header has been read: 47 bytes make the server, or the client, ask for 2 GiB; where they are not to be had the exception ends the program (C162).
* The console logger writes a line in three operations without a lock: two threads may leave two tags on one line and two ends of lines after it (C163).
* `GetNowTime` prints into a static buffer from `localtime`'s static result, and each `FileLogger` has its own lock: two loggers in two threads may write a time that is made of two times (C164).
* A worker keeps its last task until it takes the next one, inside the critical section: captures outlive their task while the pool is idle, and a captured object whose destructor calls `AddTask` or `GetBusyAndTaskNum` blocks the pool for good (C165).
* A handler that registers another handler for the path it serves grows the vector under the loop (undefined behaviour); a handler for a prefix that registers a path may split the node the search stands at, and the handlers further down are not found for this request (C166).
* `set_wait_timeout(0)` makes the loop on macOS wait for ever, the loop on Windows uses neither setting, and `set_max_event_num` accepts numbers that make the next wait undefined (not positive, or more than the stack holds) (C167).
* `Success(type, "")` keeps the body that an earlier helper gave, and the `Location` of a `Redirect` stays whatever is called later, except `Clear` (C169).
* A body above 0x7ffff000 bytes is cut where one `recv` ends; the server takes the rest for the next request. For bodies of 2 to 4 GiB `Send` returns 0 with an empty body (C37, C38).
* **C170** (copies of a socket). A copy keeps its own status: after one copy is closed the other still counts as initialised, and its calls go to whatever connection has the number by then (`C170_copies_refuted`). A second `Init` on a socket loses the first descriptor, which is never closed (`C170_init_again_refuted`).
* **C171** (timeouts). On Windows the option is a DWORD of milliseconds, and the code passes a `timeval` whose first four bytes are the seconds: a timeout of 5 seconds is one of 5 milliseconds, and one of 500000 microseconds is none (`C171_windows_refuted`). A negative number of seconds is taken as no wait at all (`C171_negative_refuted`).
* **C172** (typed values). `Get` of a key that only is the beginning of a stored key gives the node of the longer key (C10), so with another type it throws although nothing is stored under the key (`C172_absent_refuted`).
* **C173** (the log of a connection). A connection that `HandleRead` closes gets no message about its end in the I/O multiplexing mode (`C173_closed_refuted`); after a reset, and in the multi-thread mode whenever the server closed the connection itself, the message says that 0.0.0.0:0 left (`C173_reset_refuted`); the message about a failed connection is the server's error text, empty in most cases (`C173_error_refuted`).
* A signal handled while a body is being read makes the server call the handler with part of the body (the short count of `recv` is not looked at), and the rest of the body is parsed as the next request; a handler without `SA_RESTART` costs the connection (C174).
* **C175** (result codes). The headers and `docs/` promise "0 if success, -1 if failed"; `HttpHeader`, `HttpRoute`, `HttpReq` and `HttpResp`, `File::Read`, `Write` and `Append` and `HttpClient::Send` never return -1: their failures are -2 (`C175_text_refuted`, `C175_file_refuted`). Calls at the wrong time give -2, `InitSSL` in the mixed mode -3 (`C175_misuse_refuted`). A test for "less than 0" is right everywhere (`C175_codes_partial`).
* **C176** (messages of a running server). `HandleError` and `Epoll::MonitorSoc` record nothing: a callback that is called because connection 7 was reset finds the text of whatever failed before, for example "Too many open files" (`C176_connection_refuted` and the example beside it), or nothing; a connection that cannot be watched is reported with `[syserr]:` and no text (`C176_watch_refuted`); a failed `AddSoc` leaves the old message (`C176_add_refuted`).
* **C177** (idle clients). In the multi-thread mode a connection keeps its worker until the client leaves, and there is no time-out: as many idle clients as there are workers keep every other client waiting (`C177_waits_refuted`), and a single idle client keeps `Run` from returning after `Stop`, since the pool is joined first and nobody closes the connections (`C177_run_refuted`).
* **C178** (a text of the object itself). `HttpReq::Parse` stores the body before it cuts off the request line, so `req.Parse(req.body())` takes the request line from the body (`C178_request_refuted`); if the text is a header that it names itself the call throws (`C178_request_header_refuted`). `Build(body())` loses the body and writes the head twice (`C178_build_refuted`, `C178_response_build_refuted`). `Redirect(resp.body())` redirects to its own HTML page (`C178_helpers_refuted`).
* **C179** (a timer in a server). The callback gets a `Socket`, whose `Read` is `recv`, which fails on a timer: nothing is read, and the loop calls back without a pause (`C179_level_refuted`) or, edge-triggered, never again (`C179_edge_refuted`). In the mixed mode the loop goes on reporting a firing until the first task has read it; the tasks queued meanwhile each wait for a firing of their own (`C179_mixed_refuted`).
* **C180** (reading in pieces). With `Epoll::kEdgeTrigger` the README's callback, which reads once, leaves the rest of a long text lying until the client sends more (`C180_edge_refuted`). A zero byte hides the rest of its piece (`C180_nul_refuted`). A read of no bytes is repeated for ever (`C180_zero_refuted`).
* C182: the check and the use are separate system calls. A file replaced by a directory between the two makes a static handler throw, which ends the server; `File::Create` (so `FileLogger::Init`) empties a file that another program made and filled after the check; `File::Remove` removes an empty directory that took the file's place, and reports an error when another program removed the file first.
* C183: `File::Exist`, `IsFile`, `IsDir`, `CanWrite`, `Create` and `Remove` throw when the path leads through a directory that the process may not search or over too many links (`std::filesystem::status` throws), so `FileLogger::Init` throws instead of returning an error; `Remove` of a link to a name that is free reports success and leaves the link.
* C185: when the system refuses a thread, `ThreadPool(n)` terminates the program if it had started one already (the vector of joinable threads is destroyed). `Init(n)` throws `std::system_error` after it has set `thread_num_`: with no thread started `AddTask` still returns 0; `Resize(n)` then does nothing, and a second `Init` destroys joinable threads.
* C186: `GetNowTime` prints the local time without its zone: when summer time ends, an hour of lines carries times that were used already, and the times in the file go back.
* C187: `FileLogger::Init` stores the new name before it checks the file: after a failed `Init` a running logger writes its buffers to the file that could not be used, and loses them. If `Init` throws while it makes its buffers (no memory, negative size), `Stop` and the destructor follow a null pointer. C59: `Init` also accepts a directory and other users' files, and then loses every line.
* C188: if a thread is refused while a server starts in mixed mode, the listening socket is open but there is no multiplexer yet: `Stop` and the destructor follow a null pointer. In both modes a second `Init` without `Clean` leaks the first listening socket.
* C189: the library never switches the verification of certificates on and never tells OpenSSL the name of the host: `HttpClient::InitSSL` succeeds with anyone who answers, with any certificate. Only a context made and set up by the user (`SSLContext::Init(ctx)`) verifies its peer.
* C190: the age of a buffer is looked at only when something is logged: the last messages before a quiet time stay in memory until the next message or `Stop`, however long the flush interval is over. If the system clock is set back even the next messages do not bring them to the file.
* C191: `File::Write` empties the file before it writes: a crash in between leaves neither the old content nor the new. `File::Append` of data that the stream hands over in several pieces can leave a part of it.
* C192: the web server exits with 0 when the configuration file is missing, the certificate is bad, the address is taken, a static file is missing or the pid file is useless.
* C193: the message before a crash, usually the one that matters, is never in the log file: every call, `Fatal` too, leaves its message in memory, and nothing flushes when the program dies.
* C194: `ForkNode` empties the node before it makes its last text, so a key can get lost when memory runs out there; `SetNode` hangs a node to the tree before it has its text, and `Search` does not find what is later stored in it; `Reset` deletes the root before it has a new one.
* C195: a logger that is given to two `MultiLogger`s of one tree gets every message twice, and a `MultiLogger` that contains itself (`m->Init({m})`) overflows the stack at the first message.
* C196: a registration that runs out of memory can take the handler of another route with it (C194, long routes); and because `Get` takes the prefix of a key for the key, whether a failed registration has split a node decides whether a later handler becomes a route of its own or lands in the list of a longer route.
* C197: `CheckFlush` puts a new buffer into the ring before it reserves its text and counts it only afterwards. If `reserve` throws (no memory, or a `buf_size_` that was made negative after `Init`), `Stop` leaves one buffer out, and lines whose calls returned are lost.
* C198: a `MultiLogger` that contains itself, directly or through others, is never destroyed, nor is any logger in it: a `FileLogger` there does not write the lines it still holds.
* C199: a worker copies its task out of the queue instead of moving it. If memory runs out there, nothing catches the exception and the program is terminated, with a task that `AddTask` had accepted.

## Trusted base

* Lean 4.33.0's kernel.
* Axioms: `propext`, `Classical.choice`, `Quot.sound`, no others; per theorem in `THEOREMS.md`. There is no `sorry`,
  `admit`, `native_decide`, `bv_decide` and no axiom of our own.
* That the definitions in `Verif/Cpp` and `Verif/Model` render the C++ and its environment faithfully. Every definition cites
  the lines it models, so that a reader can compare; `tools/coverage.py` lists the lines of `/repo/src/cppnet` that are cited nowhere.
  As a further check `Verif/Tests` evaluates the project's own unit tests (`/repo/src/test`) on the model; these are tests, not proofs.
* That the definitions in `Verif/Spec` say what the English says.
* The theorems are tried against wrong programs by `tools/mutate.py`; the record is `seeded/LOG.jsonl`.

### What is modelled

| file (under `src/cppnet` unless it starts with `demo`) | in | not modelled |
|---|---|---|
| `utils/string.cpp` | `Model/StringUtil` | |
| `utils/trie.*` | `Model/Trie` (value), `Model/TrieHeap` (pointers), `Model/TrieAny` (values of several types), `Model/TrieMemory` (failing `new`), `Model/ServerMemory` (the same under `RegisterHandler`) | a failing `new` while a request is dispatched |
| `utils/file.*` | `Model/File` (and `StringUtil` for `Suffix`, `HttpServer` for what the static handlers read, `Meanwhile` for other programs at work between two system calls, `Links` for symbolic links and closed directories, `FileCrash` for a program that dies between two of them) | `stat` failing for other reasons, except in the static handlers; `..` behind a link |
| `utils/threadpool.*` | `Model/ThreadPool`, `Model/PoolAccess`, `Model/PoolHeld`, `Model/ThreadLimit` (refused threads), `Model/PoolMemory` (memory running out), `Model/PoolCaught` (a task that catches what `Stop` throws when it joins its own thread) | executions that are not sequentially consistent |
| `utils/host.*`, `utils/version.*` | `Model/Host` | Windows |
| `log/*` | `Model/Logger`, `Model/LogGraph` (loggers that are shared), `Model/LogOwners` (who owns them), `Model/LogMemory` (memory running out in a logging call), `Model/FileLogger`, `Model/LogAccess`, `Model/LogThreads`, `Model/LogClock` (time stamps), `Model/LogInit` (an `Init` that fails), `Model/LogAge` (the flush interval) |  |
| `socket/address.*` | `Model/Address` | IPv6 |
| `socket/socket.*` | `Model/Socket`, `Model/Timer` (datagrams), `Model/Hangup` (`SIGPIPE`), `Model/SockCopies` (copies of one socket), `Model/SockTimeout` (timeouts on each system), `Model/Signals` (interrupted reads) | the other Windows branches |
| `ssl/*` | `Model/Socket` (reading), `Model/Ssl`, `Model/HttpTls`, `Model/TlsPeer` | cryptography; what OpenSSL answers is arbitrary, except that `Model/TlsPeer` takes the check of certificates from its manual (`SSL_VERIFY_NONE` unless set otherwise) |
| `timer/*` | `Model/Timer`, `Model/TimerWatch` (a timer in a server) | setting the clock, which on Linux does not act on relative timers |
| `server/tcp_server.*` | `Model/TcpServer`, `Model/FdReuse`, `Model/StartErr`, `Model/RunErr`, `Model/StartThreads` | error texts of the threads of the two threaded modes |
| `server/io_multiplexing/*` | `Model/TcpServer` (epoll), `Model/Backends` (select, kqueue), `Model/MuxSettings` (settings, factory, stack space for the events of one wait) | |
| `http/header`, `method`, `version`, `resp/status_code` | `Model/HttpHeader`, `Model/HttpCodes`, `Model/ErrText` | |
| `http/req`, `http/resp` | `Model/HttpMsg`, `Model/HttpRoute`, `Model/ErrText`, `Model/RespCalls`, `Model/Alias` (arguments that belong to the object) | |
| `http/server` | `Model/HttpServer`, `HttpTls`, `HttpLife`, `Conversation`, `AccessLog`, `ConnLog`, `Context`, `ServerThreads`, `Reentrant`, `StaticLog` (what the static handlers log) | |
| `http/client` | `Model/HttpClient`, `HttpTls`, `ClientLife`, `StartErr`, `Memory` | |
| `demo/*` | `Model/ArgcDeal`, `ProcessCtrl`, `WebServer`, `WebStatus`, `Demos` | the JSON parser (third-party), terminal output except `MsgPrint`; Windows |
| `README.md` | `Model/Readme` (the two clients), `Model/Demos` (the HTTP server), `Model/Pieces` (the TCP server), `Model/TimerWatch` (the timer server) | |

### What is assumed about the environment

* `std::string`, `std::unordered_map`, `std::stoi`, `std::to_string`, `std::any`: as in `Verif/Cpp` and `Model/Context`. The iteration
  order of maps is arbitrary (the theorems quantify over it). `std::regex` is an arbitrary predicate. Memory is never exhausted, except where C162, C187, C194 to C197 and C199 say so.
* TCP delivers what was sent, in order, in arbitrary pieces; the stream ends with a close, an error or a timeout.
* System calls answer arbitrarily (the answers are quantified) except where a definition cites the manual: `timerfd`, `recvfrom`,
  `send` after FIN or RST, `FD_SET` of winsock, level-triggered `epoll_wait`, `EPOLL_CTL_ADD`/`DEL`. C179 also uses
  that Linux wakes the waiters of a `timerfd` with its first expiration and not again until it is read (`fs/timerfd.c`).
* Threads interleave arbitrarily; condition variables may wake spuriously; a notification wakes an arbitrary waiter. Executions are
  sequentially consistent. Where C++ calls two accesses a data race nothing is claimed; C134 says when the pool has none, C137 when the file logger has none, C138 when the server has none.
* 64-bit Linux: `size_t` of 64 bits, `int` of 32 bits, `char` signed (its bytes above 127 are negative indices), little endian.
* User callbacks are arbitrary functions of what they are given; where a theorem needs them to behave it says so in a hypothesis.
