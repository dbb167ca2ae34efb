import Verif.Props.Demos
import Verif.Model.Readme

/-!
# C161: the programs of the README
-/

namespace Cppnet
open Spec
variable {σ : Type}

/-- The request of the README's client on the wire: the two header lines may come in either order. -/
def Spec.ReadmeRequest (text : Str) : Prop :=
  text = b!"GET / HTTP/1.1\r\nHost: localhost\r\nContent-Length: 0\r\n\r\n" ∨
  text = b!"GET / HTTP/1.1\r\nContent-Length: 0\r\nHost: localhost\r\n\r\n"

theorem readme_request (o : HashOrder) : ReadmeRequest (reqBuild o (reqGET o {} b!"/" UMap.empty UMap.empty) []).2.1 ∧
    (reqBuild o (reqGET o {} b!"/" UMap.empty UMap.empty) []).2.2 = kSuccess := by
  have e0 : ∀ m : UMap, m.entries = [] → o.order m = [] := by
    intro m hm
    have := o.perm m
    rw [hm] at this
    exact this.eq_nil
  have h1 : reqGET o {} b!"/" UMap.empty UMap.empty = { method := .GET, version := .HTTP_1_1, route := { path := b!"/" } } := by
    unfold reqGET
    rw [e0 UMap.empty rfl]
    rfl
  rw [h1]
  unfold reqBuild
  rw [if_neg (by decide)]
  refine ⟨?_, rfl⟩
  have hh : reqBuildHeader { method := .GET, version := .HTTP_1_1, route := { path := b!"/" } } =
      (UMap.empty.set b!"Host" b!"localhost").set b!"Content-Length" b!"0" := by decide +kernel
  simp only [hh]
  have hp := o.perm ((UMap.empty.set b!"Host" b!"localhost").set b!"Content-Length" b!"0")
  have he : ((UMap.empty.set b!"Host" b!"localhost").set b!"Content-Length" b!"0").entries =
    [(b!"Host", b!"localhost"), (b!"Content-Length", b!"0")] := by decide +kernel
  rw [he] at hp
  have hr : routeToString o { path := b!"/" } = b!"/" := by
    unfold routeToString
    rw [if_pos (show ({ path := b!"/" } : HttpRoute).params.entries = [] from rfl)]
    decide +kernel
  unfold headerToString ReadmeRequest
  rw [hr]
  rcases pair_perm hp with e | e <;> rw [e] <;> first | exact .inl (by decide +kernel) | exact .inr (by decide +kernel)

theorem readme_is_request {text : Str} (h : ReadmeRequest text) : RequestFor b!"/" text ∧ text.length < 100 := by
  rcases h with rfl | rfl
  · refine ⟨⟨_, ⟨b!"GET / HTTP/1.1\r\nHost: localhost\r\nContent-Length: 0", [], _, rfl, ?_, rfl, rfl, ?_, by decide, by decide⟩, ?_⟩, ?_⟩
    · rw [occurs_iff_infix]; decide +kernel
    · decide +kernel
    · decide +kernel
    · decide +kernel
  · refine ⟨⟨_, ⟨b!"GET / HTTP/1.1\r\nContent-Length: 0\r\nHost: localhost", [], _, rfl, ?_, rfl, rfl, ?_, by decide, by decide⟩, ?_⟩, ?_⟩
    · rw [occurs_iff_infix]; decide +kernel
    · decide +kernel
    · decide +kernel
    · decide +kernel

set_option maxRecDepth 100000 in
/-- What the client makes of the page. -/
theorem readme_send (o : HashOrder) (writeRc : Int) (hw : 0 < writeRc) {answer : Str} (h : HelloAnswer answer) (fin : Int) :
    ∃ sent text, readmeGet o writeRc ⟨answer, fin⟩ = .ok (sent, kSuccess, text) ∧ sent.rc = kSuccess ∧
      sent.written = some (reqBuild o (reqGET o {} b!"/" UMap.empty UMap.empty) []).2.1 ∧
      sent.resp.status = .OK ∧ sent.resp.body = b!"<h1>Hello, World!</h1>" ∧ HelloAnswer text := by
  have key : ∀ head : Str, sockReadUntil ⟨answer, fin⟩ [] crlf2 = .ok (toInt32 head.length, head, ⟨b!"<h1>Hello, World!</h1>", fin⟩) →
      (match respParse {} head with
        | .ok (r, rc) => decide (rc = kSuccess ∧ toInt32 head.length > 0 ∧ r.version = .HTTP_1_1 ∧ r.status = .OK ∧ headerGetContentLength r.header = 22 ∧
            ((headerSetContentLength r.header 22).entries = [(b!"Content-Type", b!"text/html"), (b!"Content-Length", b!"22")] ∨
              (headerSetContentLength r.header 22).entries = [(b!"Content-Length", b!"22"), (b!"Content-Type", b!"text/html")]))
        | .error _ => false) = true →
      ∃ sent text, readmeGet o writeRc ⟨answer, fin⟩ = .ok (sent, kSuccess, text) ∧ sent.rc = kSuccess ∧
        sent.written = some (reqBuild o (reqGET o {} b!"/" UMap.empty UMap.empty) []).2.1 ∧
        sent.resp.status = .OK ∧ sent.resp.body = b!"<h1>Hello, World!</h1>" ∧ HelloAnswer text := by
    intro head h1 h2
    obtain ⟨_, hrc⟩ := readme_request o
    cases hp : respParse {} head with
    | error f => simp [hp] at h2
    | ok x =>
      obtain ⟨r, rc⟩ := x
      rw [hp] at h2
      simp only [decide_eq_true_eq] at h2
      obtain ⟨rfl, hlen, hver, hst, hcl, hent⟩ := h2
      unfold readmeGet clientSend
      simp only [hrc, bind, Except.bind, h1, hp, hcl, ne_eq, not_true_eq_false, if_false, Int.not_le.2 hw, Int.not_le.2 hlen]
      have hread : sockRead ⟨b!"<h1>Hello, World!</h1>", fin⟩ 22 true 0 = (22, b!"<h1>Hello, World!</h1>", ⟨[], fin⟩) := by rfl
      simp only [show ((22 : Int) > 0) = True from by simp, if_true, show (22 : Int).toNat = 22 from rfl, hread, not_true_eq_false, if_false]
      let sent : Sent :=
        { rc := 0
          req := (reqBuild o (reqGET o {} b!"/" UMap.empty UMap.empty) []).1
          resp := { r with body := b!"<h1>Hello, World!</h1>" }
          written := some (reqBuild o (reqGET o {} b!"/" UMap.empty UMap.empty) []).2.1
          conn := ⟨[], fin⟩ }
      refine ⟨sent, (respBuild o { r with body := b!"<h1>Hello, World!</h1>" } []).2.1, ?_, ?_⟩
      · have e2 : (respBuild o { r with body := b!"<h1>Hello, World!</h1>" } []).2.2 = kSuccess := by
          unfold respBuild
          rw [if_neg (by simp [hst])]
        exact congrArg (fun k => Except.ok (sent, k, _)) e2
      · refine ⟨rfl, rfl, hst, rfl, ?_⟩
        simp only [respBuild, hst, hver, reduceCtorEq, if_false]
        have hb : toInt32 (b!"<h1>Hello, World!</h1>".length) = 22 := by decide
        rw [hb]
        have hp := o.perm (headerSetContentLength r.header 22)
        have h2 : (o.order (headerSetContentLength r.header 22)) = [(b!"Content-Type", b!"text/html"), (b!"Content-Length", b!"22")] ∨
            (o.order (headerSetContentLength r.header 22)) = [(b!"Content-Length", b!"22"), (b!"Content-Type", b!"text/html")] := by
          rcases hent with e | e <;> rw [e] at hp
          · exact pair_perm hp
          · exact (pair_perm hp).symm
        unfold headerToString HelloAnswer
        rcases h2 with e | e <;> rw [e] <;> first | exact .inl (by decide +kernel) | exact .inr (by decide +kernel)
  rcases h with rfl | rfl
  · exact key b!"HTTP/1.1 200 OK\r\nContent-Type: text/html\r\nContent-Length: 22\r\n\r\n" rfl (by decide +kernel)
  · exact key b!"HTTP/1.1 200 OK\r\nContent-Length: 22\r\nContent-Type: text/html\r\n\r\n" rfl (by decide +kernel)

/-- **C161**, what holds of the README: its HTTP client and its HTTP server understand each other, whatever the order of the
hash maps in the two programs.  The server reads the client's request as a request for `/` and writes the page, once; and
when that arrives, the client's `Send` succeeds and its response holds the page, and builds to a text that is the
server's answer up to the order of the two header lines.  Missing: the other client, see the refutation. -/
theorem C161_http_partial : ∃ s : Server σ, (helloCalls (σ := σ)).foldlM (fun s x => x.perform s) {} = .ok s ∧
    ∀ (o : HashOrder) (env : Env) (writeRc fin fin' : Int) (u : σ), 0 ≤ env.writeRc → 0 < writeRc →
    ∃ (request answer : Str) (r : Served σ) (sent : Sent) (text : Str),
      handleRead env s ⟨request, fin⟩ u = .ok r ∧ r.sent = [answer] ∧ r.closed = false ∧ r.conn.input = [] ∧
      readmeGet o writeRc ⟨answer, fin'⟩ = .ok (sent, kSuccess, text) ∧ sent.rc = kSuccess ∧
      sent.written = some request ∧ sent.resp.status = .OK ∧ sent.resp.body = b!"<h1>Hello, World!</h1>" ∧
      HelloAnswer answer ∧ HelloAnswer text := by
  obtain ⟨s, h1, hs⟩ := hello_dispatch (σ := σ)
  refine ⟨s, h1, fun o env writeRc fin fin' u hw hw' => ?_⟩
  obtain ⟨hr, hrc⟩ := readme_request o
  obtain ⟨hf, hlen⟩ := readme_is_request hr
  obtain ⟨answer, ha, hread⟩ := hello_serves env s hs b!"/" _ hf (by decide)
  have hread := hread [] fin u (by
    unfold Fits
    rw [List.append_nil]
    omega)
  rw [List.append_nil] at hread
  obtain ⟨sent, text, g1, g2, g3, g4, g5, g6⟩ := readme_send o writeRc hw' (ha.1 rfl) fin'
  exact ⟨_, answer, _, sent, text, hread, rfl, by simpa using hw, rfl, g1, g2, g3, g4, g5, ha.1 rfl, g6⟩

/-- **C161**, refuted for the client that uses a `Socket`: when everything works and the whole message is sent, it
says that writing went wrong and returns 11, whatever the server answers.  It does not read, and does not close the
connection. -/
theorem C161_socket_refuted (fd : Int) (hfd : 0 ≤ fd) (close : Int) (chunk : Nat) (c : Conn) :
    readmeSocket { socket := fd, connect := 0, send := b!"hello world".length, close, chunk } c =
      ⟨b!"write wrong ", 11, [.socket, .connect fd, .send fd]⟩ := by
  unfold readmeSocket
  simp only [Sock.apply, Sock.create, Int.not_lt.2 hfd, if_false, Sock.guarded]
  rfl

/-- **C161**, what holds of that client: when the socket cannot be created or the connection not be made, or nothing can
be sent, it says so, returns the error and does nothing more with the connection. -/
theorem C161_socket_partial (a : SocketAns) (c : Conn) :
    (a.socket < 0 → readmeSocket a c = ⟨b!"init socket wrong ", -1, [.socket]⟩) ∧
    (0 ≤ a.socket → a.connect ≠ 0 → readmeSocket a c = ⟨b!"connect wrong ", a.connect, [.socket, .connect a.socket]⟩) ∧
    (0 ≤ a.socket → a.connect = 0 → a.send < 0 →
      readmeSocket a c = ⟨b!"write wrong ", a.send, [.socket, .connect a.socket, .send a.socket]⟩) := by
  refine ⟨fun h => ?_, fun h h1 => ?_, fun h h1 h2 => ?_⟩
  · unfold readmeSocket
    simp only [Sock.apply, Sock.create, h, if_true]
    rfl
  · unfold readmeSocket
    simp only [Sock.apply, Sock.create, Int.not_lt.2 h, if_false, Sock.guarded]
    simp [kSuccess, h1]
  · unfold readmeSocket
    have h3 : a.send ≠ 0 := by omega
    simp only [Sock.apply, Sock.create, Int.not_lt.2 h, if_false, Sock.guarded]
    simp [kSuccess, h1, h3]

/-- A `send` that returned 0 would let the program go on: the rest of it is as it should be. -/
example : readmeSocket { send := 0, chunk := 20 } ⟨b!"hello world, again", 0⟩ =
    ⟨b!"read hello world\n", 0, [.socket, .connect 3, .send 3, .recv 3, .close 3]⟩ := by decide +kernel

example : readmeSocket {} ⟨b!"hello world", 0⟩ = ⟨b!"write wrong ", 11, [.socket, .connect 3, .send 3]⟩ :=
  C161_socket_refuted 3 (by decide) _ _ _

end Cppnet
