import Verif.Spec.ConnLog
import Verif.Props.Hangup

/-!
# C173: the log shows when a connection came and went
-/

namespace Cppnet
open Spec
variable {σ : Type}

/-- A message that speaks neither of the beginning nor of the end of a connection. -/
def Between (m : Level × Str) : Prop := SaysAccept m = false ∧ SaysLeave m = false

theorem between_of_head {l : Level} {x : Byte} {t : Str} (h1 : x ≠ 97) (h2 : x ≠ 108) : Between (l, x :: t) := by
  constructor
  · show (b!"accept from ").isPrefixOf (x :: t) = false
    have : b!"accept from " = 97 :: b!"ccept from " := by decide
    rw [this]
    simp [List.isPrefixOf, Ne.symm h1]
  · show (b!"leave from ").isPrefixOf (x :: t) = false
    have : b!"leave from " = 108 :: b!"eave from " := by decide
    rw [this]
    simp [List.isPrefixOf, Ne.symm h2]

theorem between_str {l : Level} {t u : Str} (h : ∃ x r, t = x :: r ∧ x ≠ 97 ∧ x ≠ 108) : Between (l, t ++ u) := by
  obtain ⟨x, r, rfl, h1, h2⟩ := h
  exact between_of_head h1 h2

theorem serveLog_between {fd : Int} {sys : Str} {env : Env} {s : Server σ} {q : HttpReq} {c : Conn} {u : σ}
    {l : List (Level × Str)} (h : serveRequestLog fd sys env s q c u = .ok l) : ∀ m ∈ l, Between m := by
  unfold serveRequestLog at h
  simp only [bind, Except.bind] at h
  split at h
  · cases h
  · simp only [Except.ok.injEq] at h
    subst h
    intro m hm
    simp only [List.mem_cons, List.not_mem_nil, or_false] at hm
    rcases hm with rfl | rfl
    · simp only [logReqLine, List.append_assoc]
      exact between_str ⟨114, b!"eq: ", by decide, by decide, by decide⟩
    · split
      · exact between_str ⟨91, b!"soc.Write]", by decide, by decide, by decide⟩
      · simp only [logRespLine, List.append_assoc]
        exact between_str ⟨114, b!"esp: ", by decide, by decide, by decide⟩

theorem readLog_between {fd : Int} {t : Bool} {sys : Str} {env : Env} {s : Server σ} {c : Conn} {u : σ}
    {l : List (Level × Str)} (h : handleReadLog fd t sys env s c u = .ok l) : ∀ m ∈ l, Between m := by
  have one : ∀ {lv : Level} {x : Str}, l = [(lv, x)] → (∃ y r, x = y :: r ∧ y ≠ 97 ∧ y ≠ 108) → ∀ m ∈ l, Between m := by
    intro lv x e hx m hm
    rw [e, List.mem_singleton] at hm
    obtain ⟨y, r, rfl, h1, h2⟩ := hx
    rw [hm]
    exact between_of_head h1 h2
  unfold handleReadLog at h
  simp only [bind, Except.bind] at h
  split at h
  · cases h
  · split at h
    · simp only [Except.ok.injEq] at h
      exact one h.symm ⟨91, b!"soc.ReadUntil]: peer close before read complete", by decide, by decide, by decide⟩
    · split at h
      · simp only [Except.ok.injEq] at h
        refine one h.symm ?_
        split
        · exact ⟨91, b!"soc.ReadUntil]: read timeout", by decide, by decide, by decide⟩
        · exact ⟨91, b!"soc.ReadUntil]:" ++ sys, rfl, by decide, by decide⟩
      · split at h
        · cases h
        · split at h
          · simp only [Except.ok.injEq] at h
            subst h
            intro m hm
            simp only [List.mem_cons, List.not_mem_nil, or_false] at hm
            rcases hm with rfl | rfl
            · exact between_str ⟨91, b!"req.Parse]:", by decide, by decide, by decide⟩
            · simp only [logRespLine, List.append_assoc]
              exact between_str ⟨114, b!"esp: ", by decide, by decide, by decide⟩
          · split at h
            · split at h
              · simp only [Except.ok.injEq] at h
                exact one h.symm ⟨91, b!"soc.Read]: peer close before read complete", by decide, by decide, by decide⟩
              · split at h
                · simp only [Except.ok.injEq] at h
                  refine one h.symm ?_
                  split
                  · exact ⟨91, b!"soc.Read]: read body timeout", by decide, by decide, by decide⟩
                  · exact ⟨91, b!"soc.Read]: " ++ sys, rfl, by decide, by decide⟩
                · exact serveLog_between h
            · exact serveLog_between h

theorem taskReads_between {s : Server σ} {fd : Int} : ∀ {rs : List (Bool × Str × Env)} {c : Conn} {u : σ} {l : List (Level × Str)},
    taskReads s fd rs c u = .ok l → ∀ m ∈ l, Between m := by
  intro rs
  induction rs with
  | nil => intro c u l h; simp only [taskReads, Except.ok.injEq] at h; subst h; simp
  | cons r rs ih =>
    obtain ⟨t, sys, env⟩ := r
    intro c u l h
    simp only [taskReads, bind, Except.bind] at h
    split at h
    · cases h
    · rename_i l1 h1
      split at h
      · cases h
      · split at h
        · simp only [Except.ok.injEq] at h
          subst h
          exact readLog_between h1
        · split at h
          · cases h
          · rename_i l2 h2
            simp only [Except.ok.injEq] at h
            subst h
            intro m hm
            rcases List.mem_append.1 hm with hm | hm
            · exact readLog_between h1 m hm
            · exact ih h2 m hm

/-- The messages about the reports: first those of the requests, then at most one about the end. -/
theorem reportsLog_shape {s : Server σ} {fd : Int} {srvErr : Str} : ∀ {rs : List ConnReport} {c : Conn} {u : σ}
    {l : List (Level × Str)}, reportsLog s fd srvErr rs c u = .ok l →
    ∃ mid e, l = mid ++ e ∧ (∀ m ∈ mid, Between m) ∧
      (e = [] ∨ (∃ p, .leave p ∈ rs ∧ e = leaveLog fd p) ∨ (.error ∈ rs ∧ e = [(.error, srvErr)])) := by
  intro rs
  induction rs with
  | nil =>
    intro c u l h
    simp only [reportsLog, Except.ok.injEq] at h
    exact ⟨[], [], by rw [← h]; rfl, by simp, .inl rfl⟩
  | cons r rs ih =>
    intro c u l h
    cases r with
    | leave p =>
      simp only [reportsLog, Except.ok.injEq] at h
      exact ⟨[], leaveLog fd p, by rw [← h]; rfl, by simp, .inr (.inl ⟨p, by simp, rfl⟩)⟩
    | error =>
      simp only [reportsLog, Except.ok.injEq] at h
      exact ⟨[], _, by rw [← h]; rfl, by simp, .inr (.inr ⟨by simp, rfl⟩)⟩
    | read t sys env =>
      simp only [reportsLog, bind, Except.bind] at h
      split at h
      · cases h
      · rename_i l1 h1
        split at h
        · cases h
        · split at h
          · simp only [Except.ok.injEq] at h
            subst h
            exact ⟨l1, [], by simp, readLog_between h1, .inl rfl⟩
          · split at h
            · cases h
            · rename_i l2 h2
              simp only [Except.ok.injEq] at h
              subst h
              obtain ⟨mid, e, rfl, hm, he⟩ := ih h2
              refine ⟨l1 ++ mid, e, by simp, ?_, ?_⟩
              · intro m hm'
                rcases List.mem_append.1 hm' with hm' | hm'
                · exact readLog_between h1 m hm'
                · exact hm m hm'
              · rcases he with he | ⟨p, hp, he⟩ | ⟨hp, he⟩
                · exact .inl he
                · exact .inr (.inl ⟨p, List.mem_cons_of_mem _ hp, he⟩)
                · exact .inr (.inr ⟨List.mem_cons_of_mem _ hp, he⟩)

theorem filter_between {f : Level × Str → Bool} {l : List (Level × Str)} (h : ∀ m ∈ l, f m = false) : l.filter f = [] :=
  List.filter_eq_nil_iff.2 fun m hm => by simp [h m hm]

/-- The message of `HandleAccept`. -/
def acceptMsg (a : Address) (fd : Int) : Level × Str := (.info, b!"accept from " ++ who a fd)

/-- The message of `HandleLeave`. -/
def leaveMsg (a : Address) (fd : Int) : Level × Str := (.info, b!"leave from " ++ who a fd)

theorem acceptLog_ok {fd : Int} {p : PeerAns} {sys : Str} (hp : p.rc = 0) : acceptLog fd p sys = ([acceptMsg p.addr fd], true) := by
  unfold acceptLog
  rw [if_neg (by simpa [kSuccess] using hp)]
  simp only [acceptMsg, who, List.append_assoc]

theorem leaveLog_eq (fd : Int) (q : PeerAns) : leaveLog fd q = [leaveMsg (if q.rc = 0 then q.addr else {}) fd] := by
  simp only [leaveLog, leaveMsg, who, List.append_assoc, kSuccess]
  rfl

theorem accept_accept (a : Address) (fd : Int) : SaysAccept (acceptMsg a fd) = true :=
  List.isPrefixOf_iff_prefix.2 (List.prefix_append _ _)

theorem leave_leave (a : Address) (fd : Int) : SaysLeave (leaveMsg a fd) = true :=
  List.isPrefixOf_iff_prefix.2 (List.prefix_append _ _)

theorem accept_leave (a : Address) (fd : Int) : SaysLeave (acceptMsg a fd) = false := rfl

theorem leave_accept (a : Address) (fd : Int) : SaysAccept (leaveMsg a fd) = false := rfl

/-- **C173** (the beginning).  Whatever happens on a connection whose peer is known when it is accepted, in the I/O multiplexing mode:
the first message about it names its peer and its descriptor, and no other message says that it was accepted (whatever the client
sends: the messages about its requests begin otherwise). -/
theorem C173_accept_partial (s : Server σ) (fd : Int) (p : PeerAns) (hp : p.rc = 0) (sys srvErr : Str) (rs : List ConnReport) (c : Conn)
    (u : σ) (l : List (Level × Str)) (h : connLog s fd p sys srvErr rs c u = .ok l) (hs : SaysAccept (.error, srvErr) = false) :
    l.head? = some (.info, b!"accept from " ++ who p.addr fd) ∧ (l.filter SaysAccept).length = 1 := by
  unfold connLog at h
  rw [acceptLog_ok hp] at h
  simp only [bind, Except.bind] at h
  split at h
  · cases h
  · rename_i l' h'
    simp only [Except.ok.injEq] at h
    obtain ⟨mid, e, rfl, hm, he⟩ := reportsLog_shape h'
    subst h
    refine ⟨rfl, ?_⟩
    have h1 : mid.filter SaysAccept = [] := filter_between fun m h => (hm m h).1
    have h2 : e.filter SaysAccept = [] := by
      rcases he with rfl | ⟨q, _, rfl⟩ | ⟨_, rfl⟩
      · rfl
      · rw [leaveLog_eq]; simp only [List.filter_cons, leave_accept]; rfl
      · simp [hs]
    simp [List.filter_append, accept_accept, h1, h2]

/-- **C173** (the end).  If the server answers all the requests of a connection and then its peer leaves, the log of the connection
ends with a message that names the same peer, provided that the system still knows it, and no other message says that it was left. -/
theorem C173_leave_partial (s : Server σ) (fd : Int) (p q : PeerAns) (hp : p.rc = 0) (sys srvErr : Str)
    (reads : List (Bool × Str × Env)) (more : List ConnReport) (c : Conn) (u : σ) (ha : Answered s reads c u)
    (l : List (Level × Str))
    (h : connLog s fd p sys srvErr (reads.map (fun r => .read r.1 r.2.1 r.2.2) ++ .leave q :: more) c u = .ok l) :
    l.getLast? = some (.info, b!"leave from " ++ who (if q.rc = 0 then q.addr else {}) fd) ∧ (l.filter SaysLeave).length = 1 := by
  have key : ∀ (reads : List (Bool × Str × Env)) (c : Conn) (u : σ), Answered s reads c u → ∀ l',
      reportsLog s fd srvErr (reads.map (fun r => .read r.1 r.2.1 r.2.2) ++ .leave q :: more) c u = .ok l' →
      ∃ mid, l' = mid ++ leaveLog fd q ∧ ∀ m ∈ mid, Between m := by
    intro reads c u ha
    induction ha with
    | nil =>
      intro l' h'
      simp only [List.map_nil, List.nil_append, reportsLog, Except.ok.injEq] at h'
      exact ⟨[], by rw [← h']; rfl, by simp⟩
    | cons h1 h2 _ ih =>
      intro l' h'
      simp only [List.map_cons, List.cons_append, reportsLog, bind, Except.bind, h1, h2] at h'
      split at h'
      · cases h'
      · rename_i l1 hl1
        simp only [Bool.false_eq_true, if_false] at h'
        split at h'
        · cases h'
        · rename_i l2 hl2
          simp only [Except.ok.injEq] at h'
          subst h'
          obtain ⟨mid, rfl, hm⟩ := ih l2 hl2
          refine ⟨l1 ++ mid, by simp, fun m hm' => ?_⟩
          rcases List.mem_append.1 hm' with hm' | hm'
          · exact readLog_between hl1 m hm'
          · exact hm m hm'
  unfold connLog at h
  rw [acceptLog_ok hp] at h
  simp only [bind, Except.bind] at h
  split at h
  · cases h
  · rename_i l' h'
    simp only [Except.ok.injEq] at h
    obtain ⟨mid, rfl, hm⟩ := key reads c u ha l' h'
    subst h
    have h1 : mid.filter SaysLeave = [] := filter_between fun m h => (hm m h).2
    rw [leaveLog_eq]
    refine ⟨by rw [← List.append_assoc, List.getLast?_concat]; rfl, ?_⟩
    simp [List.filter_append, accept_leave, leave_leave, h1]

/-- **C173** (the multi-thread mode).  Each connection that was handed to a worker has exactly one message that says that it was left,
the last one, whatever the client sent; it names the peer if the system still knows it.  A connection whose peer is known in the
beginning has exactly one message that says that it was accepted, the first one. -/
theorem C173_task_partial (s : Server σ) (fd : Int) (p q : PeerAns) (sys : Str) (reads : List (Bool × Str × Env)) (c : Conn) (u : σ)
    (l : List (Level × Str)) (h : taskLog s fd p q sys reads c u = .ok l) :
    l.getLast? = some (.info, b!"leave from " ++ who (if q.rc = 0 then q.addr else {}) fd) ∧ (l.filter SaysLeave).length = 1 ∧
      (p.rc = 0 → l.head? = some (.info, b!"accept from " ++ who p.addr fd) ∧ (l.filter SaysAccept).length = 1) := by
  unfold taskLog at h
  by_cases hp : p.rc = 0
  · rw [acceptLog_ok hp] at h
    simp only [bind, Except.bind] at h
    split at h
    · cases h
    · rename_i l' h'
      simp only [Except.ok.injEq] at h
      subst h
      have hm := taskReads_between h'
      have h1 : l'.filter SaysLeave = [] := filter_between fun m h => (hm m h).2
      have h2 : l'.filter SaysAccept = [] := filter_between fun m h => (hm m h).1
      rw [leaveLog_eq]
      refine ⟨by rw [List.getLast?_concat]; rfl, ?_, fun _ => ⟨rfl, ?_⟩⟩
      · simp [List.filter_append, accept_leave, leave_leave, h1]
      · simp [List.filter_append, accept_accept, leave_accept, h2]
  · have hb : SaysLeave (.error, b!"[event_soc.GetAddr]:" ++ sys) = false :=
      (between_str ⟨91, b!"event_soc.GetAddr]:", by decide, by decide, by decide⟩ : Between _).2
    have ha : acceptLog fd p sys = ([(.error, b!"[event_soc.GetAddr]:" ++ sys)], false) := by
      unfold acceptLog
      rw [if_pos (by simpa [kSuccess] using hp)]
    rw [ha] at h
    simp only [Except.ok.injEq] at h
    subst h
    rw [leaveLog_eq]
    generalize (Level.error, b!"[event_soc.GetAddr]:" ++ sys) = m at hb
    refine ⟨by rw [List.getLast?_concat]; rfl, ?_, fun e => absurd e hp⟩
    simp [List.filter_cons, hb, leave_leave]

theorem taskReads_logs {s : Server σ} {fd : Int} : ∀ {reads : List (Bool × Str × Env)} {c : Conn} {u : σ} {l : List (Level × Str)},
    taskReads s fd reads c u = .ok l → RequestLogs s fd reads c u l := by
  intro reads
  induction reads with
  | nil =>
    intro c u l h
    simp only [taskReads, Except.ok.injEq] at h
    rw [← h]
    exact .nil
  | cons x rs ih =>
    obtain ⟨t, sys, env⟩ := x
    intro c u l h
    simp only [taskReads, bind, Except.bind] at h
    split at h
    · cases h
    · rename_i l1 h1
      split at h
      · cases h
      · rename_i r hr
        split at h
        · rename_i hc
          cases h
          exact .last h1 hr hc
        · rename_i hc
          split at h
          · cases h
          · rename_i l2 h2
            cases h
            exact .cons h1 hr (by simpa using hc) (ih h2)

/-- **C173** (all of a connection's messages, the multi-thread mode): the one about its beginning, those about its requests one after the
other, the one about its end. -/
theorem C173_messages_partial (s : Server σ) (fd : Int) (p q : PeerAns) (hp : p.rc = 0) (sys : Str) (reads : List (Bool × Str × Env))
    (c : Conn) (u : σ) (l : List (Level × Str)) (h : taskLog s fd p q sys reads c u = .ok l) :
    ∃ mid, RequestLogs s fd reads c u mid ∧
      l = (.info, b!"accept from " ++ who p.addr fd) :: mid ++ [(.info, b!"leave from " ++ who (if q.rc = 0 then q.addr else {}) fd)] := by
  unfold taskLog at h
  rw [acceptLog_ok hp] at h
  simp only [bind, Except.bind] at h
  split at h
  · cases h
  · rename_i l' h'
    simp only [Except.ok.injEq] at h
    rw [leaveLog_eq] at h
    exact ⟨l', taskReads_logs h', h.symm⟩

/-- **C173** (all of a connection's messages, the I/O multiplexing mode, when its requests are answered and then its peer leaves). -/
theorem C173_multiplexed_partial (s : Server σ) (fd : Int) (p q : PeerAns) (hp : p.rc = 0) (sys srvErr : Str)
    (reads : List (Bool × Str × Env)) (more : List ConnReport) (c : Conn) (u : σ) (ha : Answered s reads c u)
    (l : List (Level × Str))
    (h : connLog s fd p sys srvErr (reads.map (fun r => .read r.1 r.2.1 r.2.2) ++ .leave q :: more) c u = .ok l) :
    ∃ mid, RequestLogs s fd reads c u mid ∧
      l = (.info, b!"accept from " ++ who p.addr fd) :: mid ++ [(.info, b!"leave from " ++ who (if q.rc = 0 then q.addr else {}) fd)] := by
  have key : ∀ (reads : List (Bool × Str × Env)) (c : Conn) (u : σ), Answered s reads c u → ∀ l',
      reportsLog s fd srvErr (reads.map (fun r => .read r.1 r.2.1 r.2.2) ++ .leave q :: more) c u = .ok l' →
      ∃ mid, l' = mid ++ leaveLog fd q ∧ RequestLogs s fd reads c u mid := by
    intro reads c u ha
    induction ha with
    | nil =>
      intro l' h'
      simp only [List.map_nil, List.nil_append, reportsLog, Except.ok.injEq] at h'
      exact ⟨[], by rw [← h']; rfl, .nil⟩
    | cons h1 h2 _ ih =>
      intro l' h'
      simp only [List.map_cons, List.cons_append, reportsLog, bind, Except.bind, h1, h2] at h'
      split at h'
      · cases h'
      · rename_i l1 hl1
        simp only [Bool.false_eq_true, if_false] at h'
        split at h'
        · cases h'
        · rename_i l2 hl2
          cases h'
          obtain ⟨mid, rfl, hm⟩ := ih _ hl2
          exact ⟨l1 ++ mid, by simp, .cons hl1 h1 h2 hm⟩
  unfold connLog at h
  rw [acceptLog_ok hp] at h
  simp only [bind, Except.bind] at h
  split at h
  · cases h
  · rename_i l' h'
    obtain ⟨mid, rfl, hm⟩ := key reads c u ha l' h'
    simp only [Except.ok.injEq] at h
    rw [leaveLog_eq] at h
    exact ⟨mid, hm, by rw [← h]; simp [acceptMsg, leaveMsg]⟩

/-- **C173 is false** for a connection whose peer the system does not know when it is accepted (it was reset at once): in the I/O
multiplexing mode the only message about it is an error with the system's text; in the multi-thread mode a message follows that says it
was left, although none said that it came. -/
theorem C173_unknown_refuted (s : Server σ) (fd : Int) (p q : PeerAns) (hp : p.rc ≠ 0) (sys srvErr : Str) (rs : List ConnReport)
    (reads : List (Bool × Str × Env)) (c : Conn) (u : σ) :
    connLog s fd p sys srvErr rs c u = .ok [(.error, b!"[event_soc.GetAddr]:" ++ sys)] ∧
    taskLog s fd p q sys reads c u = .ok [(.error, b!"[event_soc.GetAddr]:" ++ sys),
      (.info, b!"leave from " ++ who (if q.rc = 0 then q.addr else {}) fd)] := by
  have ha : acceptLog fd p sys = ([(.error, b!"[event_soc.GetAddr]:" ++ sys)], false) := by
    unfold acceptLog
    rw [if_pos (by simpa [kSuccess] using hp)]
  constructor
  · unfold connLog
    rw [ha]
  · unfold taskLog
    rw [ha, leaveLog_eq]
    rfl

/-- **C173 is false** for a connection that the server itself closes in the I/O multiplexing mode (here after a request that it
cannot read): no message says that it was left. -/
theorem C173_closed_refuted : ∃ s : Server (List (HttpMethod × Str × Str)), demoServer = .ok s ∧
    ∀ (fd : Int) (p : PeerAns), p.rc = 0 → ∀ (more : List ConnReport) (sys srvErr : Str), ∃ l,
      connLog s fd p sys srvErr (.read false [] {} :: more) ⟨b!"GET\r\n\r\n", 0⟩ [] = .ok l ∧ (l.filter SaysLeave).length = 0 := by
  cases hs : demoServer with
  | error e =>
    have : (demoServer.map fun _ => ()) = .ok () := by decide +kernel
    rw [hs] at this; cases this
  | ok s =>
    refine ⟨s, rfl, fun fd p hp more sys srvErr => ?_⟩
    have k : (demoServer.bind fun s => handleRead {} s ⟨b!"GET\r\n\r\n", 0⟩ []).map (·.closed) = .ok true := by decide +kernel
    rw [hs] at k
    simp only [Except.bind] at k
    cases hr : handleRead {} s ⟨b!"GET\r\n\r\n", 0⟩ [] with
    | error e => rw [hr] at k; cases k
    | ok r =>
      rw [hr] at k
      simp only [Except.map, Except.ok.injEq] at k
      have hl : ∃ l1, handleReadLog fd false [] {} s ⟨b!"GET\r\n\r\n", 0⟩ ([] : List (HttpMethod × Str × Str)) = .ok l1 := by
        have e1 : sockReadUntil ⟨b!"GET\r\n\r\n", 0⟩ [] crlf2 = .ok (7, b!"GET\r\n\r\n", ⟨[], 0⟩) := by decide +kernel
        have e2 : ∃ q, reqParse {} b!"GET\r\n\r\n" = .ok (q, kLogicErr) := by
          have : (reqParse {} b!"GET\r\n\r\n").map (·.2) = .ok kLogicErr := by decide +kernel
          cases hq : reqParse {} b!"GET\r\n\r\n" with
          | error e => rw [hq] at this; cases this
          | ok x => rw [hq] at this; simp only [Except.map, Except.ok.injEq] at this; exact ⟨x.1, by rw [← this]⟩
        obtain ⟨q, e2⟩ := e2
        unfold handleReadLog
        simp only [bind, Except.bind, e1, e2]
        rw [if_neg (by decide), if_neg (by decide), if_pos (by decide)]
        exact ⟨_, rfl⟩
      obtain ⟨l1, hl⟩ := hl
      refine ⟨[acceptMsg p.addr fd] ++ l1, ?_, ?_⟩
      · unfold connLog
        rw [acceptLog_ok hp]
        simp only [reportsLog, bind, Except.bind, hl, hr, k, if_true]
      · have h1 : l1.filter SaysLeave = [] := filter_between fun m h => (readLog_between hl m h).2
        simp [List.filter_cons, accept_leave, h1]

/-- **C173 is false** after a reset: the system does not know the peer any more, and the message says "leave from 0.0.0.0:0" of
every such connection. -/
theorem C173_reset_refuted (fd : Int) (q : PeerAns) (hq : q.rc ≠ 0) :
    leaveLog fd q = [(.info, b!"leave from 0.0.0.0:0 soc: " ++ intToStr fd)] := by
  unfold leaveLog
  rw [if_neg (by simpa [kSuccess] using hq)]
  have : addressToString {} = b!"0.0.0.0:0" := by decide
  rw [this]
  simp only [List.append_assoc]
  rfl

/-- **C173 is false** for a connection that fails: the message about it is the error text of the server, which says nothing about the
connection (and is empty if nothing failed before). -/
theorem C173_error_refuted (s : Server σ) (fd : Int) (p : PeerAns) (hp : p.rc = 0) (sys : Str) (more : List ConnReport) (c : Conn)
    (u : σ) : connLog s fd p sys [] (.error :: more) c u =
      .ok [(.info, b!"accept from " ++ who p.addr fd), (.error, [])] := by
  unfold connLog
  rw [acceptLog_ok hp]
  rfl

/-- A connection on which a request is answered and which the client then closes: the hypotheses of the positive theorems hold. -/
example : (demoServer.bind fun s => connLog s 7 ⟨0, (addressInit b!"10.0.0.1" 4711).1⟩ [] []
    [.read false [] {}, .leave ⟨0, (addressInit b!"10.0.0.1" 4711).1⟩] ⟨b!"GET /a HTTP/1.1\r\n\r\n", 0⟩ []) =
    .ok [(.info, b!"accept from 10.0.0.1:4711 soc: 7"), (.info, b!"req: GET /a soc:7"), (.info, b!"resp: OK soc:7\n"),
      (.info, b!"leave from 10.0.0.1:4711 soc: 7")] := by decide +kernel

example : (demoServer.bind fun s => handleRead {} s ⟨b!"GET /a HTTP/1.1\r\n\r\n", 0⟩ []).map (·.closed) = .ok false := by decide +kernel

example : (demoServer.bind fun s => taskLog s 7 ⟨0, (addressInit b!"10.0.0.1" 4711).1⟩ ⟨-1, {}⟩ []
    [(false, [], {})] ⟨b!"GET\r\n\r\n", 0⟩ []) =
    .ok [(.info, b!"accept from 10.0.0.1:4711 soc: 7"), (.error, b!"[req.Parse]:[logicerr]:invalid http request"),
      (.info, b!"resp: Bad Request soc:7\n"), (.info, b!"leave from 0.0.0.0:0 soc: 7")] := by decide +kernel

/-- Two different requests on one connection. -/
example : (demoServer.bind fun s => taskLog s 7 ⟨0, (addressInit b!"10.0.0.1" 4711).1⟩ ⟨-1, {}⟩ []
    [(false, [], {}), (false, [], {})] ⟨b!"GET /a HTTP/1.1\r\n\r\nPOST /a HTTP/1.1\r\n\r\n", 0⟩ []).map (fun l => l.map (·.2)) =
    .ok [b!"accept from 10.0.0.1:4711 soc: 7", b!"req: GET /a soc:7", b!"resp: OK soc:7\n", b!"req: POST /a soc:7",
      b!"resp: OK soc:7\n", b!"leave from 0.0.0.0:0 soc: 7"] := by decide +kernel

end Cppnet
