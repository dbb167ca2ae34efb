import Verif.Spec.StartErr
import Verif.Props.ErrText
import Verif.Props.Tcp
import Verif.Props.Serve

/-!
# C152: a server that cannot start, a client that cannot connect or send, says why
-/

namespace Cppnet
open Spec

theorem inetNtoa_ne (i : Ip) : inetNtoa i ≠ [] := by simp [inetNtoa]

theorem addressIP_ne (a : Address) : addressIP a ≠ [] := inetNtoa_ne _

/-- C152, what holds for `TcpServer::Init`: if it fails, and not because the listening socket cannot be watched, `err_msg()` names
the first thing that went wrong.  If it succeeds the message is left as it was. -/
theorem C152_tcp_init_partial (s : TcpSrv) (a : InitAns) (x : ErrnoText) (old : Str) :
    ((tcpInit s a).2.1 = kSuccess → tcpInitErr s a x old = old) ∧
    ((tcpInit s a).2.1 ≠ kSuccess → 0 ≤ a.add → StartReason s.addr a x (tcpInitErr s a x old)) := by
  have hip := addressIP_ne s.addr
  unfold tcpInit tcpInitErr createSocket createSocketErr
  by_cases h1 : a.socket < 0
  · simp only [h1, if_true]
    have e : (Sock.ofFd kSysErr).status ≠ .init := by decide
    simp only [e, if_true, ne_eq, not_false_eq_true]
    exact ⟨fun h => absurd h (by decide), fun _ _ => .socket h1⟩
  simp only [h1, if_false]
  by_cases h2 : a.reuse < 0
  · simp only [h2, if_true]
    have e : (Sock.ofFd kSysErr).status ≠ .init := by decide
    simp only [e, if_true, ne_eq, not_false_eq_true]
    exact ⟨fun h => absurd h (by decide), fun _ _ => .reuse (by omega) h2⟩
  simp only [h2, if_false, hip, false_or]
  by_cases h3 : addressPort s.addr = 0
  · simp only [h3, if_true]
    have e : (Sock.ofFd kLogicErr).status ≠ .init := by decide
    simp only [e, if_true, ne_eq, not_false_eq_true]
    exact ⟨fun h => absurd h (by decide), fun _ _ => .address (by omega) (by omega) h3⟩
  simp only [h3, if_false]
  by_cases h4 : a.bind < 0
  · simp only [h4, if_true]
    have e : (Sock.ofFd kSysErr).status ≠ .init := by decide
    simp only [e, if_true, ne_eq, not_false_eq_true]
    exact ⟨fun h => absurd h (by decide), fun _ _ => .bind (by omega) (by omega) h3 h4⟩
  simp only [h4, if_false]
  have hs : (Sock.ofFd a.socket).status = .init := by unfold Sock.ofFd; rw [if_neg h1]
  simp only [hs, ne_eq, not_true, if_false]
  by_cases h5 : a.listen < 0
  · simp only [h5, if_true]
    exact ⟨fun h => absurd h (by decide), fun _ _ => .listen (by omega) (by omega) h3 (by omega) h5⟩
  simp only [h5, if_false]
  have key : ∀ s' : TcpSrv, ((initEpoll s' a).2.1 = kSuccess → initEpollErr s' a x old = old) ∧
      ((initEpoll s' a).2.1 ≠ kSuccess → 0 ≤ a.add → StartReason s.addr a x (initEpollErr s' a x old)) ∧
      ((initEpoll s' a).2.1 < 0 ∨ (initEpoll s' a).2.1 = kSuccess) := by
    intro s'
    unfold initEpoll initEpollErr epInit
    by_cases h6 : a.epoll < 0
    · have e : (Sock.ofFd a.epoll).status ≠ .init := by unfold Sock.ofFd; rw [if_pos h6]; exact (by decide : SockStatus.uninit ≠ .init)
      simp only [e, if_true, ne_eq, not_false_eq_true]
      have e' : kSysErr < 0 := by decide
      simp only [e', if_true]
      refine ⟨fun h => absurd h (by decide), fun _ _ => ?_, Or.inl trivial⟩
      have := StartReason.epoll (addr := s.addr) (a := a) (x := x) (by omega) (by omega) h3 (by omega) (by omega) h6
      simpa using this
    · have e : (Sock.ofFd a.epoll).status = .init := by unfold Sock.ofFd; rw [if_neg h6]
      simp only [e, ne_eq, not_true, if_false]
      have e' : ¬ kSuccess < 0 := by decide
      simp only [e', if_false, epMonitor, epollTrigger]
      by_cases h7 : a.add < 0
      · simp only [h7, if_true, Bool.false_eq_true, if_false]
        exact ⟨fun h => absurd h (by decide), fun _ h => by omega, Or.inl (by decide)⟩
      · simp [h7]
  cases hm : s.mode with
  | mixed =>
    obtain ⟨k1, k2, k3⟩ := key { s with loop := true, listen := Sock.ofFd a.socket, pool := true }
    simp only [hm] at k1 k2 k3
    have e : ∀ t, initEpollErr { s with loop := true, listen := Sock.ofFd a.socket, pool := true } a x t =
      initEpollErr { s with loop := true, listen := Sock.ofFd a.socket } a x t := fun _ => rfl
    simp only [hm] at e
    rw [e] at k1 k2
    simp only [initMode, hm]
    generalize initEpoll { s with loop := true, listen := Sock.ofFd a.socket, mode := .mixed, pool := true } a = r at *
    rcases k3 with k3 | k3
    · simp only [k3, if_true]; exact ⟨k1, k2⟩
    · have e' : ¬ r.2.1 < 0 := by rw [k3]; decide
      simp only [e', if_false]
      exact ⟨fun _ => k1 k3, fun h => absurd trivial h⟩
  | io =>
    obtain ⟨k1, k2, k3⟩ := key { s with loop := true, listen := Sock.ofFd a.socket }
    simp only [hm] at k1 k2 k3
    simp only [initMode, hm]
    generalize initEpoll { s with loop := true, listen := Sock.ofFd a.socket, mode := .io } a = r at *
    rcases k3 with k3 | k3
    · simp only [k3, if_true]; exact ⟨k1, k2⟩
    · have e' : ¬ r.2.1 < 0 := by rw [k3]; decide
      simp only [e', if_false]
      exact ⟨fun _ => k1 k3, fun h => absurd trivial h⟩
  | multiThread => simp [initMode, hm]
  | other => simp [initMode, hm]

/-- A server to show the theorems at work. -/
def startSrv : TcpSrv := { addr := (addressInit b!"127.0.0.1" 8080).1, mode := .io }

example : (tcpInit startSrv { socket := 3, bind := -1 }).2.1 ≠ kSuccess := by decide +kernel

/-- C152, where the code fails: if the listening socket cannot be watched (`epoll_ctl` fails), `Init` fails with the message
`[syserr]:` and nothing behind it, whatever the reason. -/
theorem C152_watch_refuted (s : TcpSrv) (a : InitAns) (x : ErrnoText) (old : Str) (hm : s.mode = .io ∨ s.mode = .mixed)
    (h1 : 0 ≤ a.socket) (h2 : 0 ≤ a.reuse) (h3 : addressPort s.addr ≠ 0) (h4 : 0 ≤ a.bind) (h5 : 0 ≤ a.listen) (h6 : 0 ≤ a.epoll)
    (h7 : a.add < 0) :
    (tcpInit s a).2.1 ≠ kSuccess ∧ tcpInitErr s a x old = b!"[syserr]:" ∧ ¬ StartReason s.addr a x (tcpInitErr s a x old) := by
  have hip := addressIP_ne s.addr
  have n1 : ¬ a.socket < 0 := by omega
  have n2 : ¬ a.reuse < 0 := by omega
  have n4 : ¬ a.bind < 0 := by omega
  have n5 : ¬ a.listen < 0 := by omega
  have n6 : ¬ a.epoll < 0 := by omega
  have hs : (Sock.ofFd a.socket).status = .init := by unfold Sock.ofFd; rw [if_neg n1]
  have he : (Sock.ofFd a.epoll).status = .init := by unfold Sock.ofFd; rw [if_neg n6]
  have e' : ¬ kSuccess < 0 := by decide
  have key : tcpInitErr s a x old = b!"[syserr]:" := by
    unfold tcpInitErr createSocket
    simp only [n1, n2, n4, n5, h3, hip, or_self, if_false, hs, ne_eq, not_true]
    rcases hm with hm | hm <;> simp [hm, initEpollErr, epInit, he, e', epMonitor, epollTrigger, h7, epMonitorErr]
  refine ⟨?_, key, ?_⟩
  · unfold tcpInit createSocket
    simp only [n1, n2, n4, n5, h3, hip, or_self, if_false, hs, ne_eq, not_true]
    rcases hm with hm | hm <;>
      simp [initMode, hm, initEpoll, epInit, he, e', epMonitor, epollTrigger, h7, kSysErr, kSuccess]
  · rw [key]
    generalize hk : b!"[syserr]:" = msg
    intro h
    cases h <;> first | omega | (simp at hk)

example : ∃ a : InitAns, (tcpInit startSrv a).2.1 ≠ kSuccess ∧ a.add < 0 ∧ tcpInitErr startSrv a (fun _ => b!"no space") [] = b!"[syserr]:" :=
  ⟨{ socket := 3, epoll := 4, add := -1 }, by decide +kernel⟩

/-- C152, what holds for `HttpServer::Init`: the message is that of the underlying server, so it names the first thing that went wrong
(again unless the listening socket cannot be watched).  If `Init` succeeds the message is left as it was. -/
theorem C152_http_init_partial (h : HttpSrv) (addr : Address) (a : InitAns) (x : ErrnoText) (tcp old : Str) :
    ((httpInit h addr a).2.1 = kSuccess → httpInitErr h addr a x tcp old = old) ∧
    ((httpInit h addr a).2.1 ≠ kSuccess → 0 ≤ a.add → StartReason addr a x (httpInitErr h addr a x tcp old)) := by
  have key := C152_tcp_init_partial { h.srv with addr := addr } a x tcp
  have e : (httpInit h addr a).2.1 = (tcpInit { h.srv with addr := addr } a).2.1 := by
    simp only [httpInit]
    split
    · rfl
    · rename_i hn
      simp only [ne_eq, Decidable.not_not] at hn
      exact hn.symm
  rw [e]
  unfold httpInitErr
  refine ⟨fun hk => by simp [hk], fun hk ha => ?_⟩
  simp only [hk, ne_eq, not_false_eq_true, if_true]
  exact key.2 hk ha

example : (httpInit { srv := startSrv } (addressInit b!"0.0.0.0" 80).1 { socket := 3, listen := -1 }).2.1 ≠ kSuccess := by decide +kernel

/-- C152, the plain client: `Init` fails exactly if there is no socket or the connection is refused, and the message then holds
the system's text for that; otherwise it is left as it was. -/
theorem C152_client_init (c : Client) (res rc : Int) (x : ErrnoText) (old : Str) :
    ((clientInit c res rc).2.1 = 0 → 0 ≤ res ∧ rc = 0 ∧ clientInitErr res rc x old = old) ∧
    ((clientInit c res rc).2.1 ≠ 0 →
      (res < 0 ∧ clientInitErr res rc x old = b!"[soc.Connect]:" ++ x .socket) ∨
      (0 ≤ res ∧ rc ≠ 0 ∧ clientInitErr res rc x old = b!"[soc.Connect]:" ++ x .connect)) := by
  unfold clientInit clientInitErr
  by_cases h1 : res < 0
  · simp [h1]
  · by_cases h2 : rc = kSuccess
    · have h3 : 0 ≤ res := by omega
      simp [h2, h3, h1, kSuccess]
    · have h3 : 0 ≤ res := by omega
      have h4 : rc ≠ 0 := h2
      simp [h4, h3, h1, kSuccess]

example : (clientInit {} 3 (-1)).2.1 ≠ 0 := by decide

/-- C152, what holds for the TLS client: `InitSSL` names the failure, if it is not the handshake that fails. -/
theorem C152_tls_init_partial (c : Client) (ctxNew : Option Nat) (res : Int) (sslNew : Option Nat) (rc sslRc : Int) (x : ErrnoText)
    (errno ssl old : Str) :
    ((clientInitSSL c ctxNew res sslNew rc sslRc).2.1 = 0 → clientInitSSLErr ctxNew res sslNew rc sslRc x errno ssl old = old) ∧
    ((clientInitSSL c ctxNew res sslNew rc sslRc).2.1 ≠ 0 →
      let why := clientInitSSLErr ctxNew res sslNew rc sslRc x errno ssl old
      (ctxNew = none ∧ why = b!"[ssl_soc.CreateSSLSocket]:[loginerr]:ssl context is null") ∨
      (ctxNew ≠ none ∧ res < 0 ∧ why = b!"[ssl_soc.CreateSSLSocket]:" ++ x .socket) ∨
      (ctxNew ≠ none ∧ 0 ≤ res ∧ sslNew = none ∧ why = b!"[ssl_soc.CreateSSLSocket]:[syserr]:create ssl failed") ∨
      (ctxNew ≠ none ∧ 0 ≤ res ∧ sslNew ≠ none ∧ rc < 0 ∧ why = b!"[ssl_soc.Connect]:" ++ x .connect) ∨
      (ctxNew ≠ none ∧ 0 ≤ res ∧ sslNew ≠ none ∧ 0 ≤ rc ∧ sslRc ≤ 0)) := by
  cases ctxNew with
  | none => simp [clientInitSSL, clientInitSSLErr, ctxInitCli, ctxCreate, kLogicErr]
  | some k =>
    by_cases h1 : res < 0
    · simp [clientInitSSL, clientInitSSLErr, ctxInitCli, ctxCreate, ctxAdopt, kLogicErr, h1]
    have h1' : 0 ≤ res := by omega
    cases sslNew with
    | none => simp [clientInitSSL, clientInitSSLErr, ctxInitCli, ctxCreate, ctxCreateOn, ctxAdopt, kLogicErr, h1, h1']
    | some n =>
      by_cases h2 : rc < 0
      · simp [clientInitSSL, clientInitSSLErr, ctxInitCli, ctxCreate, ctxCreateOn, ctxAdopt, SslSock.make, SslSock.connect, Sock.ofFd,
          kSysErr, kSuccess, h1, h1', h2]
      · have h2' : 0 ≤ rc := by omega
        by_cases h3 : sslRc ≤ 0 <;>
        simp [clientInitSSL, clientInitSSLErr, ctxInitCli, ctxCreate, ctxCreateOn, ctxAdopt, SslSock.make, SslSock.connect, Sock.ofFd,
          kSysErr, kSuccess, h1, h1', h2, h2', h3]

example : (clientInitSSL {} (some 1) 3 (some 2) (-1) 1).2.1 ≠ 0 := by decide

/-- C152, where the code fails: after a failed TLS handshake the message is the text of `errno`, whatever OpenSSL says. -/
theorem C152_handshake_refuted (c : Client) (k n : Nat) (res rc sslRc : Int) (x : ErrnoText) (errno old : Str) (h1 : 0 ≤ res) (h2 : 0 ≤ rc)
    (h3 : sslRc ≤ 0) :
    (clientInitSSL c (some k) res (some n) rc sslRc).2.1 ≠ 0 ∧
    ∀ ssl, clientInitSSLErr (some k) res (some n) rc sslRc x errno ssl old = b!"[ssl_soc.Connect]:" ++ errno := by
  have n1 : ¬ res < 0 := by omega
  have n2 : ¬ rc < 0 := by omega
  simp [clientInitSSL, clientInitSSLErr, ctxInitCli, ctxCreate, ctxCreateOn, ctxAdopt, SslSock.make, SslSock.connect, Sock.ofFd,
    kSysErr, kSuccess, n1, n2, h3]

example : clientInitSSLErr (some 1) 3 (some 2) 0 (-1) (fun _ => []) b!"Success" b!"certificate verify failed" [] =
    b!"[ssl_soc.Connect]:Success" := by decide +kernel

/-- The messages are all `clientSendE` adds. -/
theorem clientSendE_forget (o : HashOrder) (req : HttpReq) (resp : HttpResp) (e : RespErr) (w : Int) (c : Conn) (x : ErrnoText)
    (re old : Str) : (clientSendE o req resp e w c x re old).map (·.1) = clientSend o req resp w c := by
  unfold clientSendE clientSend
  rcases reqBuild o req [] with ⟨req', text, rc⟩
  simp only [bind, Except.bind]
  split
  · rfl
  split
  · rfl
  cases sockReadUntil c [] crlf2 with
  | error f => rfl
  | ok y =>
    obtain ⟨len, buf, c'⟩ := y
    simp only
    split
    · rfl
    have hf := respParseE_forget resp e buf
    cases hx : respParseE resp e buf with
    | error f => rw [hx] at hf; rw [← hf]; rfl
    | ok z =>
      obtain ⟨q, e', rc'⟩ := z
      rw [hx] at hf
      rw [← hf]
      by_cases h1 : rc' = kSuccess
      · by_cases h2 : headerGetContentLength q.header > 0
        · by_cases h3 : (sockRead c' (headerGetContentLength q.header).toNat true 0).1 = headerGetContentLength q.header
          · simp [h1, h2, h3, Except.map]
          · simp [h1, h2, h3, Except.map]
        · simp [h1, h2, Except.map]
      · simp [h1, Except.map]

/-- C152, what holds for `Send`: if the request was written, then after a failure the message names what was wrong with the request or
with what came back, if either nothing came back or a complete header did (and it announces no body over 2 GB less a page); after success
the message is left as it was. -/
theorem C152_send_partial (o : HashOrder) (req : HttpReq) (resp : HttpResp) (e : RespErr) (w : Int) (c : Conn) (x : ErrnoText)
    (re old : Str) (sent : Sent) (msg : Str) (hw : 0 < w) (hfin : c.fin ≤ 0) (hf : c.input.length < 2 ^ 31)
    (h : clientSendE o req resp e w c x re old = .ok (sent, msg)) :
    (sent.rc = 0 → msg = old) ∧
    (sent.rc ≠ 0 → c.input = [] ∨ Occurs crlf2 c.input → headerGetContentLength sent.resp.header ≤ maxRw →
      SendReason req c.input msg) := by
  have hfits : Fits c.input := by unfold Fits; omega
  have hb := C151_request_build o req [] re
  obtain ⟨y, hx⟩ : ∃ y, reqBuild o req [] = y := ⟨_, rfl⟩
  obtain ⟨r', text, rc⟩ := y
  rw [hx] at hb
  simp only [clientSendE, hx, bind, Except.bind] at h
  by_cases h1 : rc = kSuccess
  case neg =>
    rw [if_pos h1] at h
    cases h
    refine ⟨fun h0 => absurd h0 h1, fun _ _ _ => ?_⟩
    rw [hb.1 h1]
    exact .request (hb.2.2.1 h1)
  subst h1
  rw [if_neg (by simp), if_neg (by omega)] at h
  by_cases hearly : EarlyEnd crlf2 0 c.input
  · have := ((C34_throws_iff_partial c [] crlf2 (by simp [Fits, crlf2]) (by simpa using hfits)).1).2 (by simpa using hearly)
    rw [this] at h
    cases h
  by_cases hocc : Occurs crlf2 c.input
  case neg =>
    rw [C33_stream_end_partial c crlf2 (by simp [crlf2]) hocc hfits hearly] at h
    simp only [hfin, if_true] at h
    cases h
    exact ⟨fun h0 => absurd h0 (by decide : ¬ kLogicErr = 0), fun _ hi _ => .nothing (hi.resolve_right hocc)⟩
  obtain ⟨head, tail, e1, e2⟩ := first_blank hocc
  have hc : c = ⟨head ++ crlf2 ++ tail, c.fin⟩ := by rw [← e1]
  have hlen : (head ++ crlf2).length < 2 ^ 31 := by rw [e1, List.length_append] at hf; omega
  have hread : sockReadUntil c [] crlf2 = .ok (toInt32 (head ++ crlf2).length, head ++ crlf2, ⟨tail, c.fin⟩) := by
    rw [hc]
    refine readHead e2 ?_ (by rw [← e1]; exact hfits)
    rw [← e1, ← earlyEnd_crlf2]; exact hearly
  rw [hread] at h
  simp only at h
  have h2 : ¬ toInt32 (head ++ crlf2).length ≤ 0 := by
    rw [toInt32_small hlen]; simp [crlf2]; omega
  rw [if_neg h2] at h
  cases hp : respParseE resp e (head ++ crlf2) with
  | error f => rw [hp] at h; cases h
  | ok z =>
    obtain ⟨q, e', rc'⟩ := z
    have hr := C151_response resp q e e' _ rc' (by unfold Fits; omega) hp
    rw [hp] at h
    simp only at h
    by_cases h3 : rc' = kSuccess
    case neg =>
      rw [if_pos h3] at h
      cases h
      exact ⟨fun h0 => absurd h0 h3, fun _ _ _ => .response ⟨tail, e1.symm⟩ (hr.2 h3)⟩
    subst h3
    rw [if_neg (by simp)] at h
    have hpf : respParse resp (head ++ crlf2) = .ok (q, kSuccess) := by
      rw [← respParseE_forget resp e, hp]; rfl
    by_cases h4 : headerGetContentLength q.header > 0
    case neg =>
      rw [if_neg h4] at h
      cases h
      exact ⟨fun _ => rfl, fun h0 => absurd rfl h0⟩
    rw [if_pos h4] at h
    by_cases h5 : (sockRead ⟨tail, c.fin⟩ (headerGetContentLength q.header).toNat true 0).1 = headerGetContentLength q.header
    case pos =>
      simp only [h5, ne_eq, not_true, if_false] at h
      cases h
      exact ⟨fun _ => rfl, fun h0 => absurd rfl h0⟩
    simp only [h5, ne_eq, not_false_eq_true, if_true] at h
    cases h
    refine ⟨fun h0 => absurd h0 (by decide : ¬ kLogicErr = 0), fun _ _ hmax => .body e1 ⟨resp, q, hpf, ?_⟩⟩
    apply Classical.byContradiction
    intro hn
    apply h5
    simp only at hmax
    have hsplit : tail = tail.take (headerGetContentLength q.header).toNat ++ tail.drop (headerGetContentLength q.header).toNat :=
      (List.take_append_drop _ _).symm
    have hl : (tail.take (headerGetContentLength q.header).toNat).length = (headerGetContentLength q.header).toNat := by
      rw [List.length_take]; omega
    rw [hsplit, readBody (n := headerGetContentLength q.header) (by rw [hl]; omega) h4 (by rw [hl]; omega)]

/-- A request to show the theorems at work. -/
def startReq : HttpReq := { method := .GET, route := { path := b!"/" } }

example : ((clientSendE .insertion startReq {} {} 9 ⟨b!"HTTP/1.1 200 OK\r\nContent-Length: 3\r\n\r\nab", 0⟩ (fun _ => []) [] []).map
    (fun r => (r.1.rc, r.2))) = .ok (kLogicErr, b!"[logicerr]:invalid http response") := by decide +kernel

example : ((clientSendE .insertion startReq {} {} 9 ⟨b!"HTTP/1.1 OK\r\n\r\n", 0⟩ (fun _ => []) [] []).map
    (fun r => (r.1.rc, r.2))) = .ok (kLogicErr, b!"[resp.Parse]:first line format error") := by decide +kernel

/-- C152, where the code fails: if the connection ends or fails inside the header of the response, `Send` says that the response is empty,
whatever has been received. -/
theorem C152_cut_refuted (o : HashOrder) (req : HttpReq) (resp : HttpResp) (e : RespErr) (w : Int) (c : Conn) (x : ErrnoText)
    (re old : Str) (hm : req.method ≠ .UNKNOWN) (hv : req.version ≠ .UNKNOWN) (hw : 0 < w) (hfin : c.fin ≤ 0) (hf : Fits c.input)
    (hs : 10 ∉ c.input.take 3) (hne : c.input ≠ []) (hocc : ¬ Occurs crlf2 c.input) :
    ∃ sent, clientSendE o req resp e w c x re old = .ok (sent, b!"[logicerr]:empty http response") ∧ sent.rc ≠ 0 ∧
      ¬ SendReason req c.input b!"[logicerr]:empty http response" := by
  have hreq : ∃ r' t, reqBuild o req [] = (r', t, kSuccess) := by
    unfold reqBuild
    rw [if_neg (by simp [hm, hv])]
    exact ⟨_, _, rfl⟩
  obtain ⟨req', reqText, hreq⟩ := hreq
  have hearly : ¬ EarlyEnd crlf2 0 c.input := by rw [earlyEnd_crlf2]; exact hs
  refine ⟨⟨kLogicErr, req', resp, some reqText, ⟨[], c.fin⟩⟩, ?_, by simp [kLogicErr], ?_⟩
  · simp only [clientSendE, hreq, bind, Except.bind]
    rw [if_neg (by simp), if_neg (by omega), C33_stream_end_partial c crlf2 (by simp [crlf2]) hocc hf hearly]
    simp only [hfin, if_true]
  · generalize hk : b!"[logicerr]:empty http response" = msg
    intro h
    cases h with
    | request h => simp at hk
    | nothing h => exact hne h
    | response h1 h2 => simp at hk
    | body h1 h2 => simp at hk

example : ((clientSendE .insertion startReq {} {} 9 ⟨b!"HTTP/1.1 200 OK\r\n", -1⟩ (fun _ => []) [] []).map
    (fun r => (r.1.rc, r.2))) = .ok (kLogicErr, b!"[logicerr]:empty http response") := by decide +kernel

end Cppnet
