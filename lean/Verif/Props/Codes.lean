import Verif.Spec.Codes
import Verif.Props.Serve

/-!
# C175: calls return 0 on success and -1 on failure
-/

namespace Cppnet
open Spec
variable {σ : Type}

/-- What a call returns, if it returns, has the property. -/
def Ret {α : Type} (P : α → Prop) (x : Out α) : Prop := ∀ r, x = .ok r → P r

theorem Ret.bind {α β : Type} {P : β → Prop} {x : Out α} {f : α → Out β} (h : ∀ a, x = .ok a → Ret P (f a)) : Ret P (x >>= f) := by
  intro r hr
  cases x with
  | error e => cases hr
  | ok a => exact h a rfl r hr

theorem Ret.ok {α : Type} {P : α → Prop} {a : α} (h : P a) : Ret P (.ok a : Out α) := by
  intro r hr
  cases hr
  exact h

theorem Ret.error {α : Type} {P : α → Prop} {e : Fault} : Ret P (.error e : Out α) := by
  intro r hr
  cases hr

/-- 0 or -2. -/
def ZeroOrLogic (rc : Int) : Prop := rc = 0 ∨ rc = -2

theorem zl_ok : ZeroOrLogic kSuccess := .inl rfl
theorem zl_err : ZeroOrLogic kLogicErr := .inr rfl

theorem headerParseLines_rc : ∀ (ls : List Str) (h : HttpHeader), Ret (fun r => ZeroOrLogic r.2) (headerParseLines h ls)
  | [], _ => Ret.ok zl_ok
  | it :: rest, h => by
    unfold headerParseLines
    split
    · exact Ret.ok zl_err
    · exact Ret.bind fun _ _ => Ret.bind fun _ _ => Ret.bind fun _ _ => headerParseLines_rc rest _

theorem headerParse_rc (h : HttpHeader) (s : Str) : Ret (fun r => ZeroOrLogic r.2) (headerParse h s) := by
  unfold headerParse
  split
  · exact Ret.ok zl_err
  · exact Ret.bind fun _ _ => headerParseLines_rc _ _

theorem routeParse_rcCode (r : HttpRoute) (s : Str) : Ret (fun r => ZeroOrLogic r.2) (routeParse r s) := by
  unfold routeParse
  split
  · exact Ret.ok zl_err
  · dsimp only
    repeat' split
    all_goals first
      | exact Ret.ok zl_ok
      | exact Ret.error
      | exact Ret.bind fun _ _ => Ret.bind fun _ _ => Ret.bind fun _ _ => Ret.bind fun _ _ => Ret.ok zl_ok

theorem reqParse_rc (r : HttpReq) (s : Str) : Ret (fun r => ZeroOrLogic r.2) (reqParse r s) := by
  unfold reqParse
  split
  · exact Ret.ok zl_err
  · split
    · exact Ret.ok zl_err
    · split
      · exact Ret.ok zl_err
      · refine Ret.bind fun _ _ => Ret.bind fun _ _ => ?_
        dsimp only
        split
        · exact Ret.ok zl_err
        · refine Ret.bind fun _ _ => Ret.bind fun _ _ => Ret.bind fun _ _ => ?_
          split
          · split
            · exact Ret.ok zl_err
            · refine Ret.bind fun _ _ => ?_
              split
              · exact Ret.ok zl_err
              · split
                · exact Ret.ok zl_err
                · exact Ret.ok zl_ok
          · exact Ret.ok zl_err

theorem respParse_rc (r : HttpResp) (s : Str) : Ret (fun r => ZeroOrLogic r.2) (respParse r s) := by
  unfold respParse
  split
  · exact Ret.ok zl_err
  · split
    · exact Ret.ok zl_err
    · refine Ret.bind fun _ _ => Ret.bind fun _ _ => Ret.bind fun _ _ => ?_
      split
      · exact Ret.ok zl_err
      · split
        · exact Ret.ok zl_err
        · refine Ret.bind fun _ _ => Ret.bind fun _ _ => Ret.bind fun _ _ => ?_
          split
          · exact Ret.ok zl_err
          · exact Ret.bind fun x hx => Ret.ok (headerParse_rc _ _ x hx)

theorem reqBuild_rc (o : HashOrder) (r : HttpReq) (old : Str) : ZeroOrLogic (reqBuild o r old).2.2 := by
  unfold reqBuild
  split
  · exact zl_err
  · exact zl_ok

theorem respBuild_rc (o : HashOrder) (r : HttpResp) (old : Str) : ZeroOrLogic (respBuild o r old).2.2 := by
  unfold respBuild
  split
  · exact zl_err
  · exact zl_ok

theorem clientSend_rc (o : HashOrder) (req : HttpReq) (resp : HttpResp) (w : Int) (c : Conn) :
    Ret (fun r => ZeroOrLogic r.rc) (clientSend o req resp w c) := by
  unfold clientSend
  have hb := reqBuild_rc o req []
  generalize reqBuild o req [] = b at hb
  obtain ⟨q, text, rc⟩ := b
  dsimp only at hb ⊢
  split
  · exact Ret.ok hb
  · split
    · exact Ret.ok hb
    · refine Ret.bind fun _ _ => ?_
      split
      · exact Ret.ok zl_err
      · refine Ret.bind fun x hx => ?_
        have hx' := respParse_rc _ _ x hx
        obtain ⟨p, rc'⟩ := x
        dsimp only at hx' ⊢
        split
        · exact Ret.ok hx'
        · split
          · generalize sockRead _ _ _ _ = z
            obtain ⟨got, body, c'⟩ := z
            dsimp only
            split
            · exact Ret.ok zl_err
            · exact Ret.ok zl_ok
          · exact Ret.ok zl_ok

/-- **C175 is false** of everything that reads or writes the text of a message, and of `HttpClient::Send`: whatever the object and the text
are, they return 0 or -2, and never the -1 that the documentation names; a program that compares with -1 takes every failure for a
success. -/
theorem C175_text_refuted :
    (∀ (h : HttpHeader) (s : Str) (h' : HttpHeader) (rc : Int), headerParse h s = .ok (h', rc) → rc = 0 ∨ rc = -2) ∧
    (∀ (r : HttpRoute) (s : Str) (r' : HttpRoute) (rc : Int), routeParse r s = .ok (r', rc) → rc = 0 ∨ rc = -2) ∧
    (∀ (r : HttpReq) (s : Str) (r' : HttpReq) (rc : Int), reqParse r s = .ok (r', rc) → rc = 0 ∨ rc = -2) ∧
    (∀ (r : HttpResp) (s : Str) (r' : HttpResp) (rc : Int), respParse r s = .ok (r', rc) → rc = 0 ∨ rc = -2) ∧
    (∀ (o : HashOrder) (r : HttpReq) (old : Str), (reqBuild o r old).2.2 = if r.method = .UNKNOWN ∨ r.version = .UNKNOWN then -2 else 0) ∧
    (∀ (o : HashOrder) (r : HttpResp) (old : Str), (respBuild o r old).2.2 = if r.status = .UNKNOWN then -2 else 0) ∧
    (∀ (o : HashOrder) (req : HttpReq) (resp : HttpResp) (w : Int) (c : Conn) (r : Sent),
      clientSend o req resp w c = .ok r → r.rc = 0 ∨ r.rc = -2) := by
  refine ⟨fun h s h' rc e => headerParse_rc h s _ e, fun r s r' rc e => routeParse_rcCode r s _ e, fun r s r' rc e => reqParse_rc r s _ e,
    fun r s r' rc e => respParse_rc r s _ e, fun o r old => ?_, fun o r old => ?_,
    fun o req resp w c r e => clientSend_rc o req resp w c _ e⟩
  · unfold reqBuild
    split <;> rfl
  · unfold respBuild
    split <;> rfl

/-- **C175 is false** of the functions on files: a file that is not there, or that may not be opened, gives -2. -/
theorem C175_file_refuted (res : Str → FsKey) (fs : FsTree) (path data : Str) (a : FsAns) :
    (∀ (rc : Int) (d : Str), fileGet res fs path data a = .ok (rc, d) → rc = 0 ∨ rc = -2) ∧
    (fileWrite res fs path data a).2 = (if canOpenOut fs (res (cString path)) a then 0 else -2) ∧
    (fileAppend res fs path data a).2 = (if canOpenOut fs (res (cString path)) a then 0 else -2) ∧
    (fs (res (cString path)) = none → fileGet res fs path data a = .ok (-2, data)) := by
  refine ⟨?_, ?_, ?_, ?_⟩
  · intro rc d h
    unfold fileGet at h
    split at h
    · cases h; exact .inr rfl
    · split at h
      · cases h; exact .inr rfl
      · split at h
        · cases h
        · cases h; exact .inl rfl
    · split at h
      · cases h; exact .inr rfl
      · split at h
        · cases h
        · cases h; exact .inl rfl
    · split at h
      · cases h; exact .inl rfl
      · cases h; exact .inr rfl
  · unfold fileWrite
    by_cases hc : canOpenOut fs (res (cString path)) a = true
    · simp only [hc, Bool.not_true, Bool.false_eq_true, if_false, if_true]
      split <;> rfl
    · simp only [hc, Bool.not_false, if_true, Bool.false_eq_true, if_false]
      rfl
  · unfold fileAppend
    by_cases hc : canOpenOut fs (res (cString path)) a = true
    · simp only [hc, Bool.not_true, Bool.false_eq_true, if_false, if_true]
      split <;> rfl
    · simp only [hc, Bool.not_false, if_true, Bool.false_eq_true, if_false]
      rfl
  · intro h
    unfold fileGet
    rw [h]
    rfl

/-- **C175 is false** of calls at the wrong time: the loop of a server that was not initialised and `Run`, `WakeUp` of a running server,
the second initialisation of a context and the TLS server in the mixed mode. -/
theorem C175_misuse_refuted :
    (∀ (s : TcpSrv) (rounds : List Round) (mt : List MtRound), s.listen.status ≠ .init →
      eventLoop s rounds mt = .ok (s, [], .returned (-2))) ∧
    (∀ (h : HttpSrv) (rounds : List Round) (mt : List MtRound), h.cont = false → httpRun h rounds mt = .ok (h, [], .returned (-2))) ∧
    (∀ (s : TcpSrv) (soc conn : Int), s.loop = true → tcpWakeUp s soc conn = (-2, [])) ∧
    (∀ (c : Nat) (new : Option Nat), ctxInitCli (some c) new = (some c, -2, [])) ∧
    (∀ (h : HttpSrv) (addr : Address) (ctx : Option Nat) (a : InitAns), h.srv.mode = .mixed →
      httpInitSSL h addr ctx a = (h, -3, [])) := by
  refine ⟨?_, ?_, ?_, ?_, ?_⟩
  · intro s rounds mt h
    unfold eventLoop
    rw [if_pos h]
    rfl
  · intro h rounds mt hc
    unfold httpRun
    simp only [hc, Bool.not_false, if_true]
    rfl
  · intro s soc conn h
    unfold tcpWakeUp
    simp only [h, if_true]
    rfl
  · intro c new
    rfl
  · intro h addr ctx a hm
    unfold httpInitSSL
    rw [if_pos hm]
    rfl

theorem initEpoll_rc (s : TcpSrv) (a : InitAns) : AsDocumented (initEpoll s a).2.1 := by
  unfold initEpoll
  generalize epInit {} a.epoll = x
  obtain ⟨e, rc, t1⟩ := x
  dsimp only
  split
  · exact .inr rfl
  · generalize epMonitor e _ _ _ = y
    obtain ⟨rc', t2⟩ := y
    dsimp only
    split
    · exact .inr rfl
    · exact .inl rfl

theorem initMode_rc (s : TcpSrv) (a : InitAns) : AsDocumented (initMode s a).2.1 := by
  unfold initMode
  split
  · have h := initEpoll_rc { s with pool := true } a
    generalize initEpoll { s with pool := true } a = x at h
    obtain ⟨s', rc, t⟩ := x
    dsimp only at h ⊢
    split
    · exact h
    · exact .inl rfl
  · have h := initEpoll_rc s a
    generalize initEpoll s a = x at h
    obtain ⟨s', rc, t⟩ := x
    dsimp only at h ⊢
    split
    · exact h
    · exact .inl rfl
  · exact .inl rfl
  · exact .inl rfl

theorem tcpInit_rc (s : TcpSrv) (a : InitAns) : AsDocumented (tcpInit s a).2.1 := by
  unfold tcpInit
  generalize createSocket s a = x
  obtain ⟨l, t1⟩ := x
  dsimp only
  split
  · exact .inr rfl
  · split
    · exact .inr rfl
    · exact initMode_rc _ a

theorem httpInit_rc (h : HttpSrv) (addr : Address) (a : InitAns) : AsDocumented (httpInit h addr a).2.1 := by
  unfold httpInit
  have hi := tcpInit_rc { h.srv with addr := addr } a
  dsimp only
  generalize tcpInit { h.srv with addr := addr } a = x at hi
  obtain ⟨s, rc, t⟩ := x
  dsimp only at hi ⊢
  split
  · exact hi
  · exact .inl rfl

/-- What the system's calls without a value answer. -/
def SysAns (rc : Int) : Prop := rc = 0 ∨ rc = -1

/-- **C175** (the calls that keep to the documentation): `Init` of both servers whatever the system answers; `Init` of an address by its
text or its name; `File::Create` when it does not throw; `Init`, `Listen`, `Bind`, `Connect`, `Close`, `GetAddr` and the options of a
socket and `HttpClient::Init`, when the system answers 0 or -1 as it documents. -/
theorem C175_documented_partial :
    (∀ (s : TcpSrv) (a : InitAns), AsDocumented (tcpInit s a).2.1) ∧
    (∀ (h : HttpSrv) (addr : Address) (a : InitAns), AsDocumented (httpInit h addr a).2.1) ∧
    (∀ (ip : Str) (port : UInt16), AsDocumented (addressInit ip port).2) ∧
    (∀ (old : Address) (port : UInt16) (host : Option Ip), AsDocumented (addressInitDomain old port host).2) ∧
    (∀ (res : Str → FsKey) (fs fs' : FsTree) (path : Str) (a : FsAns) (rc : Int), fileCreate res fs path a = .ok (fs', rc) →
      AsDocumented rc) ∧
    (∀ (s : Sock) (rc : Int), AsDocumented (s.apply (.init rc)).2.1 ∧ AsDocumented (s.apply (.initUdp rc)).2.1) ∧
    (∀ (s : Sock) (rc : Int), SysAns rc → AsDocumented (s.apply (.listen rc)).2.1 ∧ AsDocumented (s.apply (.bind rc)).2.1 ∧
      AsDocumented (s.apply (.connect rc)).2.1 ∧ AsDocumented (s.apply (.close rc)).2.1 ∧ AsDocumented (s.apply (.getAddr rc)).2.1 ∧
      AsDocumented (s.apply (.setSockOpt rc)).2.1 ∧ ∀ flags, AsDocumented (s.apply (.setNoBlock flags rc)).2.1 ∧
      AsDocumented (s.apply (.setBlock flags rc)).2.1) ∧
    (∀ (c : Client) (res rc : Int), SysAns rc → AsDocumented (clientInit c res rc).2.1) := by
  refine ⟨tcpInit_rc, httpInit_rc, fun _ _ => .inl rfl, ?_, ?_, ?_, ?_, ?_⟩
  · intro old port host
    cases host
    · exact .inr rfl
    · exact .inl rfl
  · intro res fs fs' path a rc h
    unfold fileCreate at h
    split at h
    · cases h; exact .inl rfl
    · cases hd : createDirs (res (cString path)) a fs with
      | error e => rw [hd] at h; cases h
      | ok fs1 =>
        rw [hd] at h
        simp only [Except.bind] at h
        unfold createOpen at h
        split at h
        · cases h; exact .inr rfl
        · split at h <;> · cases h; exact .inl rfl
  · intro s rc
    have : AsDocumented (s.create rc).2.1 := by
      unfold Sock.create
      split
      · exact .inr rfl
      · exact .inl rfl
    exact ⟨this, this⟩
  · intro s rc h
    have hg : ∀ calls, AsDocumented (s.guarded calls rc).2.1 := by
      intro calls
      unfold Sock.guarded
      split
      · exact .inr rfl
      · exact h
    refine ⟨hg _, hg _, hg _, ?_, hg _, h, fun flags => ⟨?_, ?_⟩⟩
    · simp only [Sock.apply]
      split
      · exact .inr rfl
      · exact h
    · simp only [Sock.apply]
      split
      · exact .inr rfl
      · exact h
    · simp only [Sock.apply]
      split
      · exact .inr rfl
      · exact h
  · intro c res rc h
    unfold clientInit
    split
    · exact .inr rfl
    · dsimp only
      split
      · exact h
      · exact .inl rfl

/-- **C175** (what success means): a call on a socket reports success exactly if the object is in use where that is asked, and every
system call it needs has succeeded. -/
theorem C175_success_partial (s : Sock) (flags rc : Int) :
    ((s.apply (.init rc)).2.1 = 0 ↔ 0 ≤ rc) ∧ ((s.apply (.initUdp rc)).2.1 = 0 ↔ 0 ≤ rc) ∧
    ((s.apply (.listen rc)).2.1 = 0 ↔ s.status = .init ∧ rc = 0) ∧ ((s.apply (.bind rc)).2.1 = 0 ↔ s.status = .init ∧ rc = 0) ∧
    ((s.apply (.connect rc)).2.1 = 0 ↔ s.status = .init ∧ rc = 0) ∧ ((s.apply (.close rc)).2.1 = 0 ↔ s.status = .init ∧ rc = 0) ∧
    ((s.apply (.getAddr rc)).2.1 = 0 ↔ s.status = .init ∧ rc = 0) ∧ ((s.apply (.setSockOpt rc)).2.1 = 0 ↔ rc = 0) ∧
    ((s.apply (.setNoBlock flags rc)).2.1 = 0 ↔ flags ≠ -1 ∧ rc = 0) ∧
    ((s.apply (.setBlock flags rc)).2.1 = 0 ↔ flags ≠ -1 ∧ rc = 0) := by
  have hg : ∀ calls, (s.guarded calls rc).2.1 = 0 ↔ s.status = .init ∧ rc = 0 := by
    intro calls
    unfold Sock.guarded
    split <;> simp_all
  have hc : (s.create rc).2.1 = 0 ↔ 0 ≤ rc := by
    unfold Sock.create
    split
    · simp [kSysErr]; omega
    · simp [kSuccess]; omega
  refine ⟨hc, hc, hg _, hg _, hg _, ?_, hg _, Iff.rfl, ?_, ?_⟩ <;>
  · simp only [Sock.apply]
    split <;> simp_all

/-- Non-trivial: an open socket, a failed `fcntl`, a closed socket. -/
example : ((({} : Sock).apply (.init 3)).1.apply (.setBlock 2 0)).2.1 = 0 ∧ ((({} : Sock).apply (.init 3)).1.apply (.setBlock (-1) 0)).2.1 = -1 ∧
    (({} : Sock).apply (.listen 0)).2.1 = -1 := by decide +kernel

theorem isCode_of_doc {rc : Int} (h : AsDocumented rc) : IsCode rc := by
  rcases h with h | h
  · exact .inl h
  · exact .inr (.inl h)

theorem isCode_of_zl {rc : Int} (h : ZeroOrLogic rc) : IsCode rc := by
  rcases h with h | h
  · exact .inl h
  · exact .inr (.inr (.inl h))

theorem ioLoop_rcCode : ∀ (rounds : List Round) (s : TcpSrv), Ret (fun r => EndsWith AsDocumented r.2.2) (ioLoop s rounds)
  | [], s => by
    unfold ioLoop
    split
    · exact Ret.error
    · refine Ret.ok ?_
      dsimp only
      split
      · trivial
      · exact .inl rfl
  | r :: rs, s => by
    unfold ioLoop
    split
    · exact Ret.error
    · split
      · split
        · exact Ret.bind fun _ _ => Ret.ok trivial
        · exact Ret.bind fun _ _ => Ret.bind fun x hx => Ret.ok (ioLoop_rcCode rs _ x hx)
        · exact Ret.ok (.inr rfl)
        · exact Ret.bind fun _ _ => Ret.bind fun _ _ => Ret.bind fun x hx => Ret.ok (ioLoop_rcCode rs _ x hx)
      · exact Ret.ok (.inl rfl)

theorem mtLoop_rcCode : ∀ (rounds : List MtRound) (s : TcpSrv), Ret (fun r => EndsWith AsDocumented r.2.2) (mtLoop s rounds)
  | [], s => by
    unfold mtLoop
    split
    · exact Ret.ok trivial
    · exact Ret.bind fun _ _ => Ret.ok (.inl rfl)
  | r :: rs, s => by
    unfold mtLoop
    split
    · refine Ret.bind fun s' _ => ?_
      split
      · exact Ret.ok trivial
      · split
        · exact Ret.bind fun _ _ => Ret.ok (.inl rfl)
        · split
          · exact Ret.bind fun _ _ => Ret.ok (.inr rfl)
          · exact Ret.bind fun _ _ => Ret.bind fun x hx => Ret.ok (mtLoop_rcCode rs _ x hx)
    · exact Ret.bind fun _ _ => Ret.ok (.inl rfl)

theorem endsCode {o : LoopEnd} (h : EndsWith AsDocumented o) : EndsWith IsCode o := by
  cases o with
  | waiting => trivial
  | returned rc => exact isCode_of_doc h

theorem eventLoop_rcCode (s : TcpSrv) (rounds : List Round) (mt : List MtRound) :
    Ret (fun r => EndsWith IsCode r.2.2) (eventLoop s rounds mt) := by
  unfold eventLoop
  split
  · exact Ret.ok (.inr (.inr (.inl rfl)))
  · split
    · exact Ret.ok (.inr (.inr (.inl rfl)))
    · split
      · exact fun r h => endsCode (ioLoop_rcCode rounds s r h)
      · refine Ret.bind fun x hx => ?_
        have h := endsCode (ioLoop_rcCode rounds s x hx)
        obtain ⟨s', t, o⟩ := x
        dsimp only at h ⊢
        split
        · exact Ret.bind fun _ _ => Ret.ok h
        · exact Ret.ok h
      · exact fun r h => endsCode (mtLoop_rcCode mt s r h)
      · exact Ret.ok (.inr (.inr (.inl rfl)))

theorem sslConnect_rc (s : SslSock) (rc sslRc : Int) : IsCode (s.connect rc sslRc).2.1 := by
  unfold SslSock.connect
  split
  · exact .inr (.inr (.inl rfl))
  · split
    · exact .inr (.inr (.inl rfl))
    · split
      · exact .inr (.inl rfl)
      · split
        · exact .inr (.inl rfl)
        · exact .inl rfl

/-- **C175** (what does hold everywhere): success is 0 and every failure is one of the three negative codes, so that "less than 0" is the
test that never errs. -/
theorem C175_codes_partial :
    (∀ (h : HttpHeader) (s : Str) (h' : HttpHeader) (rc : Int), headerParse h s = .ok (h', rc) → IsCode rc) ∧
    (∀ (r : HttpReq) (s : Str) (r' : HttpReq) (rc : Int), reqParse r s = .ok (r', rc) → IsCode rc) ∧
    (∀ (r : HttpResp) (s : Str) (r' : HttpResp) (rc : Int), respParse r s = .ok (r', rc) → IsCode rc) ∧
    (∀ (o : HashOrder) (req : HttpReq) (resp : HttpResp) (w : Int) (c : Conn) (r : Sent),
      clientSend o req resp w c = .ok r → IsCode r.rc) ∧
    (∀ (c : Client) (ctxNew : Option Nat) (res : Int) (sslNew : Option Nat) (rc sslRc : Int),
      IsCode (clientInitSSL c ctxNew res sslNew rc sslRc).2.1) ∧
    (∀ (s : TcpSrv) (rounds : List Round) (mt : List MtRound) (s' : TcpSrv) (t : List NetEv) (o : LoopEnd),
      eventLoop s rounds mt = .ok (s', t, o) → EndsWith IsCode o) ∧
    (∀ (h : HttpSrv) (rounds : List Round) (mt : List MtRound) (h' : HttpSrv) (t : List NetEv) (o : LoopEnd),
      httpRun h rounds mt = .ok (h', t, o) → EndsWith IsCode o) ∧
    (∀ (h : HttpSrv) (addr : Address) (ctx : Option Nat) (a : InitAns), IsCode (httpInitSSL h addr ctx a).2.1) ∧
    (∀ (s : TcpSrv) (soc conn : Int), IsCode (tcpWakeUp s soc conn).1) ∧
    (∀ (m : Option Nat) (op : CtxOp), IsCode (ctxApply m op).2.1) ∧
    (∀ (s : SslSock) (rc sslRc : Int), IsCode (s.connect rc sslRc).2.1 ∧ IsCode s.close.2.1) := by
  refine ⟨fun h s h' rc e => isCode_of_zl (headerParse_rc h s _ e), fun r s r' rc e => isCode_of_zl (reqParse_rc r s _ e),
    fun r s r' rc e => isCode_of_zl (respParse_rc r s _ e), fun o req resp w c r e => isCode_of_zl (clientSend_rc o req resp w c _ e),
    ?_, fun s rounds mt s' t o e => eventLoop_rcCode s rounds mt _ e, ?_, ?_, ?_, ?_, ?_⟩
  · intro c ctxNew res sslNew rc sslRc
    unfold clientInitSSL
    generalize ctxInitCli none ctxNew = x
    obtain ⟨m, _, t1⟩ := x
    dsimp only
    generalize ctxCreate m res sslNew = y
    obtain ⟨so, t2⟩ := y
    cases so with
    | none => exact .inr (.inr (.inl rfl))
    | some s =>
      have h := sslConnect_rc s rc sslRc
      dsimp only
      split
      · exact h
      · exact .inl rfl
  · intro h rounds mt h' t o e
    unfold httpRun at e
    split at e
    · cases e
      exact .inr (.inr (.inl rfl))
    · cases he : eventLoop h.srv rounds mt with
      | error f => rw [he] at e; cases e
      | ok x =>
        have hx := eventLoop_rcCode _ _ _ _ he
        rw [he] at e
        obtain ⟨s', t', o'⟩ := x
        cases e
        exact hx
  · intro h addr ctx a
    unfold httpInitSSL
    split
    · exact .inr (.inr (.inr rfl))
    · split
      · exact .inr (.inr (.inl rfl))
      · have hi := isCode_of_doc (httpInit_rc h addr a)
        generalize httpInit h addr a = x at hi
        obtain ⟨h', rc, t⟩ := x
        dsimp only at hi ⊢
        split
        · exact hi
        · exact .inl rfl
  · intro s soc conn
    unfold tcpWakeUp
    split
    · exact .inr (.inr (.inl rfl))
    · split
      · split
        · exact .inr (.inl rfl)
        · split
          · exact .inr (.inl rfl)
          · exact .inl rfl
      · split
        · exact .inr (.inl rfl)
        · split
          · exact .inr (.inl rfl)
          · exact .inl rfl
      · exact .inl rfl
  · intro m op
    cases op with
    | init c => exact .inl rfl
    | close => exact .inl rfl
    | initCli new =>
      simp only [ctxApply, ctxInitCli]
      split
      · exact .inr (.inr (.inl rfl))
      · split
        · exact .inr (.inl rfl)
        · exact .inl rfl
    | initSvr cert key a =>
      simp only [ctxApply, ctxInitSvr]
      split
      · exact .inr (.inr (.inl rfl))
      · split
        · exact .inr (.inr (.inl rfl))
        · split
          · exact .inr (.inl rfl)
          · split
            · exact .inr (.inl rfl)
            · split
              · exact .inr (.inl rfl)
              · split
                · exact .inr (.inl rfl)
                · exact .inl rfl
    | initSvrFile cert key a =>
      simp only [ctxApply, ctxInitSvrFile]
      split
      · exact .inr (.inr (.inl rfl))
      · split
        · exact .inr (.inr (.inl rfl))
        · split
          · exact .inr (.inl rfl)
          · split
            · exact .inr (.inl rfl)
            · split
              · exact .inr (.inl rfl)
              · exact .inl rfl
  · intro s rc sslRc
    refine ⟨sslConnect_rc s rc sslRc, ?_⟩
    unfold SslSock.close
    split
    · exact .inr (.inr (.inl rfl))
    · exact .inl rfl

/-- Each of the refuted functions does fail: an empty text, a request without a method, a response without a status. -/
example : headerParse UMap.empty [] = .ok (UMap.empty, -2) := rfl
example : (reqParse {} b!"GET / HTTP/1.1\r\n\r\n").map (·.2) = .ok 0 := by decide +kernel
example : (reqParse {} b!"GET /\r\n\r\n").map (·.2) = .ok (-2) := by decide +kernel
example : (respParse {} b!"HTTP/1.1 200\r\n\r\n").map (·.2) = .ok (-2) := by decide +kernel
example : (routeParse {} []).map (·.2) = .ok (-2) := by decide +kernel
example (o : HashOrder) : (reqBuild o {} []).2.2 = -2 := rfl
example (o : HashOrder) : (respBuild o {} []).2.2 = -2 := rfl
example (o : HashOrder) : (clientSend o {} {} 1 ⟨[], 0⟩).map (·.rc) = .ok (-2) := rfl
example : fileGet (fun _ => [b!"a"]) (fun k => if k = [] then some .dir else none) b!"a" [] {} = .ok (-2, []) := by decide +kernel
example : (fileWrite (fun _ => []) (fun k => if k = [] then some .dir else none) b!"/" [] {}).2 = -2 := by decide +kernel

end Cppnet
