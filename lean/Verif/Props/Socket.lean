import Verif.Proofs.Socket
import Verif.Spec.Net

/-!
# C33–C36, C66, C71, C72: sockets
-/

namespace Cppnet
open Spec

/-! ### C33, C34 -/

theorem getLast?_front {d front : Str} {last : Byte} (h : d = front ++ [last]) : d.getLast? = some last := by
  rw [h]; simp

theorem front_of_ne_nil {d : Str} (h : d ≠ []) : ∃ front last, d = front ++ [last] :=
  ⟨d.dropLast, d.getLast h, (List.dropLast_concat_getLast h).symm⟩

theorem not_early {d front : Str} {last : Byte} {held : Nat} {input : Str} (h : ¬ EarlyEnd d held input)
    (hd : d = front ++ [last]) : held < d.length → last ≠ 0 ∧ last ∉ input.take (d.length - 1 - held) := by
  intro hh
  constructor
  · intro e; exact h ⟨front, last, hd, hh, Or.inl e⟩
  · intro e; exact h ⟨front, last, hd, hh, Or.inr e⟩

/-- C33, when the delimiter arrives: `ReadUntil` stores the shortest prefix that ends with the
delimiter, returns its length (below 2 GiB) and leaves the rest of the stream unread.  Missing: streams
in which the delimiter's last byte arrives too early (`EarlyEnd`), for which it throws. -/
theorem C33_read_until_partial (c : Conn) (delim pre rest : Str) (hd : delim ≠ [])
    (hi : c.input = pre ++ delim ++ rest) (hfirst : ¬ Occurs delim (pre ++ delim.dropLast))
    (hf : Fits c.input) (hs : ¬ EarlyEnd delim 0 c.input) :
    ∃ rc, sockReadUntil c [] delim = .ok (rc, pre ++ delim, ⟨rest, c.fin⟩) ∧
      ((pre ++ delim).length < 2 ^ 31 → rc = (pre ++ delim).length) := by
  obtain ⟨front, last, hfl⟩ := front_of_ne_nil hd
  have hl := getLast?_front hfl
  obtain ⟨h0, h1⟩ := not_early hs hfl (by rw [hfl]; simp)
  unfold sockReadUntil
  rw [hl]
  refine ⟨_, readUntilLoop_found c.fin hl (fun h => hfirst (occurs_iff_infix.2 h)) _ _ _ (by simpa using hi)
    (by simp) ?_ (fun e => absurd e.symm h0) (by simpa using h1) (fun _ h => hd (by simpa using h)),
    fun h => toInt32_small h⟩
  unfold Fits at hf
  simp only [List.nil_append]
  omega

/-- C33, when the stream ends first: everything received is in the buffer, the result is that of the
failing receive. -/
theorem C33_stream_end_partial (c : Conn) (delim : Str) (hd : delim ≠ []) (hn : ¬ Occurs delim c.input)
    (hf : Fits c.input) (hs : ¬ EarlyEnd delim 0 c.input) :
    sockReadUntil c [] delim = .ok (c.fin, c.input, ⟨[], c.fin⟩) := by
  obtain ⟨front, last, hfl⟩ := front_of_ne_nil hd
  have hl := getLast?_front hfl
  obtain ⟨h0, h1⟩ := not_early hs hfl (by rw [hfl]; simp)
  unfold sockReadUntil
  rw [hl]
  unfold Fits at hf
  have := readUntilLoop_none (d := delim) c.fin c.input [] 0 (fun h => hn (occurs_iff_infix.2 (by simpa using h)))
    (by simp only [List.nil_append]; omega) (fun e => absurd e.symm h0) (by simpa using h1)
  simpa using this

/-- C33 is false in general: a stream that starts with the delimiter makes `ReadUntil` throw, although
it contains the delimiter. -/
theorem C33_delimiter_first_refuted (rest : Str) (fin : Int) :
    sockReadUntil ⟨b!"\r\n\r\n" ++ rest, fin⟩ [] crlf2 = .error .outOfRange := by
  have : readUntilLoop crlf2 10 fin 0 [] (b!"\r\n\r\n" ++ rest) = .error .outOfRange :=
    readUntilLoop_throws fin (by decide) _ _ _ (fun e => absurd e (by decide)) (by simp [crlf2])
  exact this

example : sockReadUntil ⟨b!"GET / HTTP/1.1\r\nA: b\r\n\r\nbody\r\n\r\n", 0⟩ [] crlf2 =
    .ok (24, b!"GET / HTTP/1.1\r\nA: b\r\n\r\n", ⟨b!"body\r\n\r\n", 0⟩) := by decide +kernel
example : ¬ EarlyEnd crlf2 0 b!"GET / HTTP/1.1\r\nA: b\r\n\r\nbody\r\n\r\n" := by
  rintro ⟨front, last, h, _, h2⟩
  have e : last = 10 := by
    have := getLast?_front h
    simpa [crlf2] using this.symm
  subst e
  rcases h2 with h2 | h2
  · cases h2
  · revert h2; decide

/-- C34 is false: one line feed is enough to make `ReadUntil(buf, CRLFCRLF)` throw. -/
theorem C34_line_feed_throws_refuted (rest : Str) (fin : Int) :
    sockReadUntil ⟨b!"\n" ++ rest, fin⟩ [] crlf2 = .error .outOfRange := by
  have : readUntilLoop crlf2 10 fin 0 [] (b!"\n" ++ rest) = .error .outOfRange :=
    readUntilLoop_throws fin (by decide) _ _ _ (fun e => absurd e (by decide)) (by simp [crlf2])
  exact this

/-- C34, exactly: `ReadUntil` throws iff the last byte of the delimiter is NUL or arrives while the text is
still shorter than the delimiter; it never fails in any other way. -/
theorem C34_throws_iff_partial (c : Conn) (buf delim : Str) (hd : Fits delim) (hf : Fits (buf ++ c.input)) :
    (sockReadUntil c buf delim = .error .outOfRange ↔ EarlyEnd delim buf.length c.input) ∧
    (¬ EarlyEnd delim buf.length c.input → ∃ r, sockReadUntil c buf delim = .ok r) := by
  unfold Fits at hd hf
  by_cases hne : delim = []
  · subst hne
    refine ⟨⟨fun h => by simp [sockReadUntil] at h, ?_⟩, fun _ => ⟨_, rfl⟩⟩
    rintro ⟨front, last, h, _⟩
    simp at h
  obtain ⟨front, last, hfl⟩ := front_of_ne_nil hne
  have hl := getLast?_front hfl
  have hok : ¬ EarlyEnd delim buf.length c.input → ∃ r, sockReadUntil c buf delim = .ok r := by
    intro hs
    have hs' := not_early hs hfl
    unfold sockReadUntil
    rw [hl]
    refine readUntilLoop_total c.fin _ _ _ (by omega) ?_ ?_
    · intro e
      refine Classical.byContradiction fun h => (hs' (by omega)).1 e.symm
    · by_cases h : buf.length < delim.length
      · exact (hs' h).2
      · have : delim.length - 1 - buf.length = 0 := by omega
        simp [this]
  refine ⟨⟨fun h => ?_, ?_⟩, hok⟩
  · refine Classical.byContradiction fun hn => ?_
    obtain ⟨r, hr⟩ := hok hn
    rw [hr] at h
    cases h
  · rintro ⟨front', last', h1, h2, h3⟩
    have : last' = last := by
      have := getLast?_front h1
      rw [hl] at this
      simpa using this.symm
    subst this
    unfold sockReadUntil
    rw [hl]
    by_cases h0 : last' = 0
    · subst h0
      exact readUntilLoop_now c.fin (by omega) h2
    · exact readUntilLoop_throws c.fin (by omega) _ _ _ (fun e => absurd e.symm h0) (h3.resolve_left h0)

/-! ### C35 -/

theorem ioRead_count {c : Conn} {len chunk : Nat} {flag : RecvFlag} {rc : Int} {bytes : Str} {c' : Conn}
    (h : ioRead c len flag chunk = (rc, bytes, c')) :
    bytes.length ≤ len ∧ bytes <+: c.input ∧
    (flag ≠ .peek → c.input = bytes ++ c'.input) ∧ (flag = .peek → c' = c) := by
  unfold ioRead at h
  by_cases h0 : len = 0
  · simp only [h0, if_true, Prod.mk.injEq] at h
    obtain ⟨_, rfl, rfl⟩ := h
    simp [h0]
  · rw [if_neg h0] at h
    by_cases h1 : c.input = []
    · simp only [h1, if_true, Prod.mk.injEq] at h
      obtain ⟨_, rfl, rfl⟩ := h
      simp
    · simp only [h1, if_false, Prod.mk.injEq] at h
      obtain ⟨_, rfl, rfl⟩ := h
      refine ⟨?_, List.take_prefix _ _, ?_, ?_⟩
      · have : recvCount len c.input.length chunk flag ≤ len := by
          unfold recvCount; cases flag <;> simp only <;> omega
        simp only [List.length_take]; omega
      · intro hf; simp [hf]
      · intro hf; simp [hf]

theorem sockRead_text (c : Conn) (len chunk : Nat) (flag : RecvFlag) :
    cString ((ioRead c len flag chunk).2.1 ++ List.replicate (len + 1 - (ioRead c len flag chunk).2.1.length) 0) =
      cString (ioRead c len flag chunk).2.1 := by
  obtain ⟨x, hx⟩ : ∃ x, ioRead c len flag chunk = x := ⟨_, rfl⟩
  obtain ⟨rc, bytes, c'⟩ := x
  rw [hx]
  have := (ioRead_count hx).1
  have e : len + 1 - bytes.length = len - bytes.length + 1 := by omega
  rw [e]
  exact cString_append _ _

/-- C35, `Read`: it returns `n ≥ 0`, the number of bytes taken off the stream (for `complete`: all `len`
of them if the stream has that many and `len` is below the kernel's limit; otherwise at least one);
`buf` holds those bytes exactly when none of them is NUL.  Missing: bytes with a NUL (refuted). -/
theorem C35_read_partial (c : Conn) (len chunk : Nat) (complete : Bool) (hlen : 0 < len)
    (hi : c.input ≠ []) :
    ∃ bytes rest, c.input = bytes ++ rest ∧ bytes ≠ [] ∧ bytes.length ≤ len ∧
      (complete = true → len ≤ maxRw → len ≤ c.input.length → bytes.length = len) ∧
      (complete = true → c.input.length ≤ len → len ≤ maxRw → rest = []) ∧
      sockRead c len complete chunk = ((bytes.length : Int), cString bytes, (⟨rest, c.fin⟩ : Conn)) ∧
      (cString bytes = bytes ↔ 0 ∉ bytes) := by
  let flag : RecvFlag := if complete then .waitall else .none
  have hfp : flag ≠ .peek := by simp only [flag]; cases complete <;> simp
  have hpos : 0 < c.input.length := List.length_pos_iff.2 hi
  have hval : ioRead c len flag chunk = (((recvCount len c.input.length chunk flag : Nat) : Int),
      c.input.take (recvCount len c.input.length chunk flag),
      (⟨c.input.drop (recvCount len c.input.length chunk flag), c.fin⟩ : Conn)) := by
    unfold ioRead
    rw [if_neg (by omega), if_neg hi]
    simp [hfp]
  have hn : recvCount len c.input.length chunk flag ≤ c.input.length ∧
      0 < recvCount len c.input.length chunk flag ∧ recvCount len c.input.length chunk flag ≤ len := by
    have : 0 < maxRw := by decide
    unfold recvCount; cases flag <;> simp only <;> omega
  refine ⟨c.input.take (recvCount len c.input.length chunk flag),
    c.input.drop (recvCount len c.input.length chunk flag), (List.take_append_drop _ _).symm, ?_, ?_, ?_, ?_, ?_,
    cString_eq_self⟩
  · intro h
    have := congrArg List.length h
    simp only [List.length_take, List.length_nil] at this
    omega
  · simp only [List.length_take]; omega
  · intro hc h1 h2
    have : flag = .waitall := by simp [flag, hc]
    rw [this]
    simp only [recvCount, List.length_take]
    omega
  · intro hc h1 h2
    have : flag = .waitall := by simp [flag, hc]
    rw [this]
    apply List.drop_of_length_le
    simp only [recvCount]
    omega
  · have ht := sockRead_text c len chunk flag
    unfold sockRead
    rw [show (if complete = true then RecvFlag.waitall else RecvFlag.none) = flag from rfl]
    rw [hval] at ht ⊢
    simp only at ht ⊢
    rw [ht]
    simp only [List.length_take, Nat.min_eq_left hn.1]

/-- C35, `ReadPeek` leaves the stream untouched and shows a prefix of it (up to its first NUL). -/
theorem C35_peek_partial (c : Conn) (len chunk : Nat) :
    ∃ rc bytes, sockReadPeek c len chunk = (rc, cString bytes, c) ∧ bytes <+: c.input ∧ bytes.length ≤ len ∧
      (0 < len → c.input ≠ [] → bytes ≠ [] ∧ rc = bytes.length) := by
  obtain ⟨x, hx⟩ : ∃ x, ioRead c len .peek chunk = x := ⟨_, rfl⟩
  obtain ⟨rc, bytes, c'⟩ := x
  obtain ⟨h1, h2, _, h4⟩ := ioRead_count hx
  have ht := sockRead_text c len chunk .peek
  refine ⟨rc, bytes, ?_, h2, h1, ?_⟩
  · unfold sockReadPeek
    rw [hx] at ht ⊢
    simp only at ht ⊢
    rw [ht, h4 rfl]
  · intro hl hi
    unfold ioRead at hx
    rw [if_neg (by omega), if_neg hi] at hx
    simp only [Prod.mk.injEq] at hx
    obtain ⟨rfl, rfl, _⟩ := hx
    have hpos : 0 < c.input.length := List.length_pos_iff.2 hi
    have hm : 0 < maxRw := by decide
    have hn : 0 < recvCount len c.input.length chunk .peek ∧
        recvCount len c.input.length chunk .peek ≤ c.input.length := by simp only [recvCount]; omega
    refine ⟨fun h => ?_, ?_⟩
    · have := congrArg List.length h
      simp only [List.length_take, List.length_nil] at this
      omega
    · simp only [List.length_take, Nat.min_eq_left hn.2]

/-- C35 is false: of the bytes `a NUL b` only `a` arrives in the buffer, while the result says 3. -/
theorem C35_nul_truncates_refuted :
    sockRead ⟨[97, 0, 98, 99], 0⟩ 3 true 0 = (3, [97], ⟨[99], 0⟩) := by decide +kernel

/-- C35 is false for zero bytes anywhere: the buffer is never what was received. -/
theorem C35_nul_general_refuted (c : Conn) (len chunk : Nat) (complete : Bool)
    (h : 0 ∈ (ioRead c len (if complete then .waitall else .none) chunk).2.1) :
    (sockRead c len complete chunk).2.1 ≠ (ioRead c len (if complete then .waitall else .none) chunk).2.1 := by
  have ht := sockRead_text c len chunk (if complete then .waitall else .none)
  intro e
  unfold sockRead at e
  simp only [ht] at e
  exact absurd h (cString_eq_self.1 e)

example : sockRead ⟨b!"hello world", 0⟩ 5 true 0 = (5, b!"hello", ⟨b!" world", 0⟩) := by decide +kernel
example : sockRead ⟨b!"hello", -1⟩ 50 true 0 = (5, b!"hello", ⟨[], -1⟩) := by decide +kernel

/-! ### C36 -/

/-- C36: a protected call on an object that is not initialised (never was, or closed) returns -1 and
makes no system call. -/
theorem C36_no_io (s : Sock) (op : SockOp) (hs : s.status ≠ .init) (ho : Guarded op) :
    s.apply op = (s, -1, []) := by
  cases op <;> simp_all [Guarded, Sock.apply, Sock.guarded]

theorem run_cons (s : Sock) (op : SockOp) (ops : List SockOp) :
    s.run (op :: ops) = (((s.apply op).1.run ops).1, (op, (s.apply op).2) :: ((s.apply op).1.run ops).2) := rfl

theorem apply_status_ne_init (s : Sock) (op : SockOp) (hs : s.status ≠ .init) (ho : ¬ IsInit op) :
    (s.apply op).1.status ≠ .init := by
  cases op <;> simp_all [IsInit, Sock.apply, Sock.guarded] <;> split <;> simp_all

theorem run_not_init (ops : List SockOp) : ∀ (s : Sock), s.status ≠ .init → (∀ op ∈ ops, ¬ IsInit op) →
    ∀ e ∈ (s.run ops).2, Guarded e.1 → e.2.1 = -1 ∧ e.2.2 = [] := by
  induction ops with
  | nil => intro s _ _ e he; simp [Sock.run] at he
  | cons op ops ih =>
    intro s hs ho e he hg
    rw [run_cons] at he
    simp only [List.mem_cons] at he
    rcases he with rfl | he
    · have := C36_no_io s op hs hg
      simp [this]
    · exact ih _ (apply_status_ne_init s op hs (ho op (by simp))) (fun o h => ho o (by simp [h])) e he hg

/-- C36 over histories: after any history, once `Close` has been called every protected call fails with -1
and makes no system call, until the next `Init`/`InitUdp`. -/
theorem C36_after_close (s : Sock) (pre post : List SockOp) (r : Int) (hp : ∀ op ∈ post, ¬ IsInit op) :
    ∀ e ∈ (((s.run pre).1.apply (.close r)).1.run post).2, Guarded e.1 → e.2.1 = -1 ∧ e.2.2 = [] := by
  apply run_not_init _ _ _ hp
  simp only [Sock.apply]
  split <;> simp_all

/-- C36 before any initialisation: the same, from a default-constructed object or one built from a
negative descriptor. -/
theorem C36_before_init (fd : Int) (hfd : fd < 0) (post : List SockOp) (hp : ∀ op ∈ post, ¬ IsInit op) :
    (∀ e ∈ (({} : Sock).run post).2, Guarded e.1 → e.2.1 = -1 ∧ e.2.2 = []) ∧
    (∀ e ∈ ((Sock.ofFd fd).run post).2, Guarded e.1 → e.2.1 = -1 ∧ e.2.2 = []) :=
  ⟨run_not_init _ _ (by simp) hp, run_not_init _ _ (by simp [Sock.ofFd, hfd]) hp⟩

/-- Number of entries that closed, resp. created, a descriptor. -/
def closeCount (log : List (SockOp × Int × List Syscall)) : Nat := log.countP (fun e => decide (Closes e))

def createCount (log : List (SockOp × Int × List Syscall)) : Nat := log.countP (fun e => decide (Created e))

def openCount (s : Sock) : Nat := if s.status = .init then 1 else 0

theorem not_closes_replicate (n : Nat) (fd fd' : Int) : Syscall.close fd' ∉ List.replicate n (Syscall.recv fd) := by
  intro h; have := List.eq_of_mem_replicate h; cases this

theorem step_balance (s : Sock) (op : SockOp) :
    openCount (s.apply op).1 + (if Closes (op, (s.apply op).2) then 1 else 0) ≤
      openCount s + (if Created (op, (s.apply op).2) then 1 else 0) ∧
    ((IsInit op → s.status ≠ .init) → openCount (s.apply op).1 + (if Closes (op, (s.apply op).2) then 1 else 0) =
      openCount s + (if Created (op, (s.apply op).2) then 1 else 0)) := by
  obtain ⟨fd, st⟩ := s
  cases op with
  | init res =>
    by_cases h : res < 0 <;> cases st <;> simp [Sock.apply, Sock.create, h, Closes, Created, IsInit, openCount]
  | initUdp res =>
    by_cases h : res < 0 <;> cases st <;> simp [Sock.apply, Sock.create, h, Closes, Created, IsInit, openCount]
  | readUntil n res =>
    cases st <;>
      simp [Sock.apply, Sock.guarded, Closes, Created, IsInit, openCount, not_closes_replicate]
  | setNoBlock a b => by_cases h : a = -1 <;> simp [Sock.apply, h, Closes, Created, IsInit]
  | setBlock a b => by_cases h : a = -1 <;> simp [Sock.apply, h, Closes, Created, IsInit]
  | setSockOpt a => simp [Sock.apply, Closes, Created, IsInit]
  | close r => cases st <;> simp [Sock.apply, Closes, Created, IsInit, openCount]
  | accept res => cases st <;> simp [Sock.apply, Sock.guarded, Closes, Created, IsInit, openCount]
  | listen res => cases st <;> simp [Sock.apply, Sock.guarded, Closes, Created, IsInit, openCount]
  | bind res => cases st <;> simp [Sock.apply, Sock.guarded, Closes, Created, IsInit, openCount]
  | connect res => cases st <;> simp [Sock.apply, Sock.guarded, Closes, Created, IsInit, openCount]
  | read res => cases st <;> simp [Sock.apply, Sock.guarded, Closes, Created, IsInit, openCount]
  | readPeek res => cases st <;> simp [Sock.apply, Sock.guarded, Closes, Created, IsInit, openCount]
  | readUdp res => cases st <;> simp [Sock.apply, Sock.guarded, Closes, Created, IsInit, openCount]
  | write res => cases st <;> simp [Sock.apply, Sock.guarded, Closes, Created, IsInit, openCount]
  | writeUdp res => cases st <;> simp [Sock.apply, Sock.guarded, Closes, Created, IsInit, openCount]
  | getAddr res => cases st <;> simp [Sock.apply, Sock.guarded, Closes, Created, IsInit, openCount]

theorem run_balance (ops : List SockOp) : ∀ (s : Sock),
    openCount (s.run ops).1 + closeCount (s.run ops).2 ≤ openCount s + createCount (s.run ops).2 ∧
    ((∀ pre op post, ops = pre ++ op :: post → IsInit op → ((s.run pre).1).status ≠ .init) →
      openCount (s.run ops).1 + closeCount (s.run ops).2 = openCount s + createCount (s.run ops).2) := by
  induction ops with
  | nil => intro s; simp [Sock.run, closeCount, createCount]
  | cons op ops ih =>
    intro s
    obtain ⟨h1, h2⟩ := ih (s.apply op).1
    obtain ⟨h3, h4⟩ := step_balance s op
    rw [run_cons]
    simp only [closeCount, createCount, List.countP_cons, decide_eq_true_eq] at *
    refine ⟨by omega, fun hh => ?_⟩
    have e1 := h2 (by
      intro pre o post e hi
      have := hh (op :: pre) o post (by simp [e]) hi
      simpa [run_cons] using this)
    have e2 := h4 (hh [] op ops rfl)
    omega

/-- C36: there is never more than one `close` per successful initialisation, whatever the history: an
object that starts uninitialised makes at most as many `close` calls as it created descriptors. -/
theorem C36_close_once (ops : List SockOp) :
    closeCount (({} : Sock).run ops).2 ≤ createCount (({} : Sock).run ops).2 := by
  have := (run_balance ops {}).1
  simp only [openCount] at this
  simp at this
  omega

/-- C36 is false on one point: initialising twice loses the first descriptor, so there is not one
`close` for every successful `Init`. -/
theorem C36_reinit_leaks_refuted :
    (({} : Sock).run [.init 3, .init 4, .close 0, .close 0]).2 =
      [(.init 3, 0, [.socket]), (.init 4, 0, [.socket]), (.close 0, 0, [.close 4]), (.close 0, -1, [])] := by
  decide +kernel

/-- C36 is false on another: a failed `Init` on an open object loses its descriptor but keeps it
"initialised", so later calls do reach the system, with descriptor -1. -/
theorem C36_failed_init_refuted :
    (({} : Sock).run [.init 3, .init (-1), .write 5, .close 0]).2 =
      [(.init 3, 0, [.socket]), (.init (-1), -1, [.socket]), (.write 5, 5, [.send (-1)]), (.close 0, 0, [.close (-1)])] := by
  decide +kernel

/-- C36: if no initialisation happens on an open object, every created descriptor but the current one
has been closed: #close + (1 if still open) = #created. -/
theorem C36_balanced_partial (ops : List SockOp)
    (h : ∀ pre op post, ops = pre ++ op :: post → IsInit op → ((({} : Sock).run pre).1).status ≠ .init) :
    closeCount (({} : Sock).run ops).2 + (if (({} : Sock).run ops).1.status = .init then 1 else 0) =
      createCount (({} : Sock).run ops).2 := by
  have := (run_balance ops {}).2 h
  simp only [openCount] at this
  simp at this
  omega

example : (({} : Sock).run [.init 3, .write 4, .close 0, .write 4, .close 0, .init 5, .read 2, .close 0]).2.map (·.2.2) =
    [[.socket], [.send 3], [.close 3], [], [], [.socket], [.recv 5], [.close 5]] := by decide +kernel

/-! ### C71 -/

/-- C71 is false: the option setters and `SetNoBlock`/`SetBlock` do not check the status; on a closed
object they act on the old descriptor number, which may by now belong to somebody else. -/
theorem C71_setters_after_close_refuted :
    (({} : Sock).run [.init 3, .close 0, .setSockOpt 0, .setNoBlock 0 0]).2 =
      [(.init 3, 0, [.socket]), (.close 0, 0, [.close 3]), (.setSockOpt 0, 0, [.setsockopt 3]),
       (.setNoBlock 0 0, 0, [.fcntl 3, .fcntl 3])] := by
  decide +kernel

/-- C71, what holds: setters never change the object and make no call but `fcntl`/`setsockopt` on the
stored descriptor. -/
theorem C71_setters_partial (s : Sock) (op : SockOp) (h1 : ¬ Guarded op) (h2 : ¬ IsInit op) :
    (s.apply op).1 = s ∧ ∀ c ∈ (s.apply op).2.2, c = .fcntl s.fd ∨ c = .setsockopt s.fd := by
  cases op <;> simp_all [Guarded, IsInit, Sock.apply] <;> split <;> simp_all

/-! ### C66, C72 -/

theorem sslReadAll_spec (len : Nat) (hlen : len < 2 ^ 31) :
    ∀ (fuel : Nat) (c : Conn) (got : Str) (chunks : Nat → Nat), c.fin ≤ 0 → got.length ≤ len →
      len - got.length < fuel →
      (∃ bytes rest, c.input = bytes ++ rest ∧ got.length + bytes.length = len ∧
        sslReadAll len fuel c got chunks = .ok (len, got ++ bytes, ⟨rest, c.fin⟩)) ∨
      (got.length + c.input.length < len ∧
        sslReadAll len fuel c got chunks = .ok (kSysErr, got ++ c.input, ⟨[], c.fin⟩)) := by
  intro fuel
  induction fuel with
  | zero => intro c got chunks _ _ h; omega
  | succ fuel ih =>
    intro c got chunks hfin hle hfu
    unfold sslReadAll
    by_cases hlt : got.length < len
    · rw [if_pos hlt]
      have e1 : toInt32 (len - got.length) = ((len - got.length : Nat) : Int) := toInt32_small (by omega)
      rw [e1]
      unfold sslRead
      rw [if_neg (by omega)]
      by_cases hi : c.input = []
      · right
        refine ⟨by simp [hi]; exact hlt, ?_⟩
        obtain ⟨inp, fin⟩ := c
        simp only at hi hfin
        subst hi
        simp [hfin]
      · rw [if_neg hi]
        have hpos : 0 < c.input.length := List.length_pos_iff.2 hi
        obtain ⟨n, hn⟩ : ∃ n, min (min (((len - got.length : Nat) : Int)).toNat c.input.length) (chunks 0 + 1) = n := ⟨_, rfl⟩
        have hn1 : 0 < n ∧ n ≤ c.input.length ∧ n ≤ len - got.length := by
          have : (((len - got.length : Nat) : Int)).toNat = len - got.length := by simp
          rw [this] at hn
          omega
        simp only [hn]
        rw [if_neg (by omega)]
        have hgl : (got ++ c.input.take n).length = got.length + n := by
          simp only [List.length_append, List.length_take]; omega
        rcases ih ⟨c.input.drop n, c.fin⟩ (got ++ c.input.take n) (fun i => chunks (i + 1)) hfin
          (by omega) (by omega) with ⟨bytes, rest, h1, h2, h3⟩ | ⟨h1, h2⟩
        · left
          refine ⟨c.input.take n ++ bytes, rest, ?_, ?_, ?_⟩
          · rw [List.append_assoc, ← h1, List.take_append_drop]
          · simp only [List.length_append, List.length_take]; rw [hgl] at h2; omega
          · rw [h3]; simp
        · right
          refine ⟨?_, ?_⟩
          · simp only [List.length_drop] at h1; omega
          · rw [h2]; simp
    · rw [if_neg hlt]
      left
      refine ⟨[], c.input, rfl, by simp; omega, ?_⟩
      have : got.length = len := by omega
      rw [this, toInt32_small hlen]
      simp

/-- While 2 GiB or more are missing, the loop cannot end well: the count that reaches `SSL_read` is what is missing
modulo 2^32, so that a multiple of 2^32 stays missing, and a count that is not positive is an error. -/
theorem sslReadAll_huge (len : Nat) :
    ∀ (fuel : Nat) (c : Conn) (got : Str) (chunks : Nat → Nat), c.fin ≤ 0 → got.length + 2 ^ 31 ≤ len →
      len < got.length + fuel → ∃ got' c', sslReadAll len fuel c got chunks = .ok (kSysErr, got', c') := by
  intro fuel
  induction fuel with
  | zero => intro c got chunks _ h1 h2; omega
  | succ fuel ih =>
    intro c got chunks hfin hge hfu
    unfold sslReadAll
    rw [if_pos (by omega)]
    obtain ⟨v, hv⟩ : ∃ v, toInt32 (len - got.length) = v := ⟨_, rfl⟩
    rw [hv]
    unfold sslRead
    by_cases hneg : v ≤ 0
    · rw [if_pos hneg]
      exact ⟨_, _, rfl⟩
    · rw [if_neg hneg]
      by_cases hi : c.input = []
      · rw [if_pos hi]
        simp [hfin]
      · rw [if_neg hi]
        have hpos : 0 < c.input.length := List.length_pos_iff.2 hi
        have hroom : got.length + v.toNat + 2 ^ 32 ≤ len := by
          unfold toInt32 at hv
          simp only at hv
          split at hv <;> omega
        obtain ⟨n, hn⟩ : ∃ n, min (min v.toNat c.input.length) (chunks 0 + 1) = n := ⟨_, rfl⟩
        simp only [hn]
        rw [if_neg (by omega)]
        have hgl : (got ++ c.input.take n).length = got.length + n := by
          simp only [List.length_append, List.length_take]; omega
        exact ih ⟨c.input.drop n, c.fin⟩ (got ++ c.input.take n) (fun i => chunks (i + 1)) hfin (by omega) (by omega)

/-- C66: a complete SSL read of `len` bytes either returns `len` with exactly the next `len` bytes of the stream, or,
if the stream ends before or 2 GiB or more are asked for, the system error code; never a short count, and it always ends,
whatever record sizes arrive. -/
theorem C66_complete (c : Conn) (len : Nat) (chunks : Nat → Nat) (hfin : c.fin ≤ 0) :
    (len ≤ c.input.length ∧ len < 2 ^ 31 ∧ sslIoRead c len .waitall chunks =
        .ok (len, c.input.take len, ⟨c.input.drop len, c.fin⟩)) ∨
    ((c.input.length < len ∨ 2 ^ 31 ≤ len) ∧ ∃ got c', sslIoRead c len .waitall chunks = .ok (kSysErr, got, c')) := by
  unfold sslIoRead
  rw [if_pos rfl]
  by_cases hlen : len < 2 ^ 31
  · rcases sslReadAll_spec len hlen (len + 1) c [] chunks hfin (by simp) (by simp) with
      ⟨bytes, rest, h1, h2, h3⟩ | ⟨h1, h2⟩
    · left
      simp only [List.length_nil, Nat.zero_add] at h2
      rw [h3, h1]
      refine ⟨by simp [h2], hlen, ?_⟩
      rw [← h2]
      simp
    · right
      refine ⟨Or.inl (by simpa using h1), _, _, h2⟩
  · right
    exact ⟨Or.inr (by omega), sslReadAll_huge len _ c [] chunks hfin (by simp; omega) (by simp)⟩

example : sslIoRead ⟨b!"hello world", 0⟩ 8 .waitall (fun i => i) = .ok (8, b!"hello wo", ⟨b!"rld", 0⟩) := by
  decide +kernel

/-- C72 is false: `ReadPeek` on an SSL socket consumes what it shows (the flag is ignored). -/
theorem C72_ssl_peek_consumes_refuted :
    sslIoRead ⟨b!"abc", 0⟩ 2 .peek (fun _ => 5) = .ok (2, b!"ab", ⟨b!"c", 0⟩) := by decide +kernel

/-- C72, what holds: the bytes shown are a prefix of the stream, and on a plain socket the stream is left
untouched. -/
theorem C72_peek_partial (c : Conn) (len : Nat) (chunks : Nat → Nat) :
    (∃ rc bytes c', sslIoRead c len .peek chunks = .ok (rc, bytes, c') ∧ c.input = bytes ++ c'.input) ∧
    (ioRead c len .peek (chunks 0)).2.2 = c := by
  constructor
  · unfold sslIoRead
    rw [if_neg (by simp)]
    unfold sslRead
    by_cases h0 : toInt32 len ≤ 0
    · exact ⟨_, _, _, by rw [if_pos h0], by simp⟩
    · rw [if_neg h0]
      by_cases h1 : c.input = []
      · exact ⟨_, _, _, by rw [if_pos h1], by simp⟩
      · exact ⟨_, _, _, by rw [if_neg h1], by simp⟩
  · obtain ⟨x, hx⟩ : ∃ x, ioRead c len .peek (chunks 0) = x := ⟨_, rfl⟩
    obtain ⟨rc, bytes, c'⟩ := x
    rw [hx]
    exact (ioRead_count hx).2.2.2 rfl

end Cppnet
