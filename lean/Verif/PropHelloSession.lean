import Verif.PropHelloAll
import Verif.ScriptAll

/-!
# C57: sessions of the example program with any client

The client may send anything after the handshake.  What the program has sent when its threads have come to an end
is determined by the messages and the number of threads.
-/

namespace Fuse

open Spec

variable {ε : Type}

/-- A listing is asked for, and the buffer for it has no room for the one entry. -/
def Spec.HelloSmall : ClientReq → Prop
  | .readdirOld b => b.fh = 1002 ∧ b.offset = 0 ∧ b.size.toNat < 40
  | .readdir b => b.fh = 1002 ∧ b.offset = 0 ∧ b.size.toNat < 40
  | _ => False

/-- The program's reaction to a message that the server accepts: the messages it sends, or `none` for a panic. -/
inductive Spec.HelloReacts (uid gid : UInt32) (layout : FuseLayout) (m : Bytes) : Option (List Bytes) → Prop
  /-- FORGET, INTERRUPT and BATCH_FORGET have no answer. -/
  | silent (ho : u32At m 4 ∈ [2, 36, 42]) : HelloReacts uid gid layout m (some [])
  /-- Operations that the program does not have. -/
  | other (ho : u32At m 4 ∉ [2, 36, 42]) (ht : helloType layout (u32At m 4) = none) :
      HelloReacts uid gid layout m (some [frame (idOf m) (-38) []])
  /-- A request of the operations that it has. -/
  | answer {t a e p} (ht : helloType layout (u32At m 4) = some t) (ha : Encodes t a m) (hs : ¬ HelloSmall a)
      (hp : helloAnswer uid gid layout.versionMinor.toNat (nodeOf m) a = some (e, p)) :
      HelloReacts uid gid layout m (some [frame (idOf m) e p])
  /-- A listing for which there is no room. -/
  | small {t a} (ht : helloType layout (u32At m 4) = some t) (ha : Encodes t a m) (hs : HelloSmall a) :
      HelloReacts uid gid layout m none
  /-- A message of the operations that it has, but without a request. -/
  | garbage {t} (ht : helloType layout (u32At m 4) = some t) (ha : ∀ a, ¬ Encodes t a m) :
      HelloReacts uid gid layout m none

theorem helloRoom_iff {alloc : Nat → Nat} (halloc : ∀ n, alloc n % 8 = 0) (a : ClientReq) :
    HelloRoom alloc a ↔ ¬ HelloSmall a := by
  cases a <;> first | exact ⟨fun _ h => h, fun _ => trivial⟩ | skip
  all_goals
    rename_i b
    constructor
    · intro h h'
      have := (h h'.1 h'.2.1).1
      have := h'.2.2
      omega
    · intro h h1 h2
      refine ⟨Nat.le_of_not_lt fun h3 => h ⟨h1, h2, h3⟩, halloc _⟩

theorem helloType_silent {layout : FuseLayout} {n : Nat} (h : n ∈ [2, 36, 42]) : helloType layout n = none := by
  simp only [List.mem_cons, List.not_mem_nil, or_false] at h
  rcases h with rfl | rfl | rfl <;> rfl

/-- There is only one reaction to each message. -/
theorem Spec.HelloReacts.unique {uid gid : UInt32} {layout : FuseLayout} {m : Bytes} {o o' : Option (List Bytes)}
    (h : HelloReacts uid gid layout m o) (h' : HelloReacts uid gid layout m o') : o = o' := by
  cases h with
  | silent ho =>
    have hn := helloType_silent (layout := layout) ho
    cases h' with
    | silent => rfl
    | other ho' => exact absurd ho ho'
    | answer ht | small ht | garbage ht => rw [hn] at ht; cases ht
  | other ho hn =>
    cases h' with
    | silent ho' => exact absurd ho' ho
    | other => rfl
    | answer ht | small ht | garbage ht => rw [hn] at ht; cases ht
  | answer ht ha hs hp =>
    cases h' with
    | silent ho' => rw [helloType_silent ho'] at ht; cases ht
    | other _ ht' => rw [ht] at ht'; cases ht'
    | answer ht' ha' _ hp' =>
      rw [ht] at ht'; cases ht'
      rw [C67_unambiguous ha ha', hp'] at hp
      cases hp; rfl
    | small ht' ha' hs' =>
      rw [ht] at ht'; cases ht'
      rw [C67_unambiguous ha ha'] at hs
      exact absurd hs' hs
    | garbage ht' ha' => rw [ht] at ht'; cases ht'; exact absurd ha (ha' _)
  | small ht ha hs =>
    cases h' with
    | silent ho' => rw [helloType_silent ho'] at ht; cases ht
    | other _ ht' => rw [ht] at ht'; cases ht'
    | answer ht' ha' hs' _ =>
      rw [ht] at ht'; cases ht'
      rw [C67_unambiguous ha ha'] at hs
      exact absurd hs hs'
    | small => rfl
    | garbage => rfl
  | garbage ht ha =>
    cases h' with
    | silent ho' => rw [helloType_silent ho'] at ht; cases ht
    | other _ ht' => rw [ht] at ht'; cases ht'
    | answer ht' ha' _ _ => rw [ht] at ht'; cases ht'; exact absurd ha' (ha _)
    | small => rfl
    | garbage => rfl

/-- There is a reaction to every message, and it is the program's. -/
theorem hello_reacts (fs : Hello (Script ε) ε) (closed : RecvError ε) (hsock : fs.sock = scripted closed)
    (halloc : ∀ n, fs.alloc n % 8 = 0) {m : Bytes} (ha : Acceptable m) :
    ∃ o, HelloReacts fs.uid fs.gid fs.layout m o ∧ ∀ s, fs.dispatch ⟨m⟩ s =
      match o with
      | some out => .ok ⟨s.incoming, s.outgoing ++ out⟩
      | none => .error .panic := by
  obtain ⟨h1, h2, h3⟩ := C57_exact fs m ha
  have hrep : ∀ id e p, fs.Replies m id e p → ∀ s, fs.dispatch ⟨m⟩ s =
      .ok ⟨s.incoming, s.outgoing ++ [frame id e p]⟩ := by
    intro id e p h s
    obtain ⟨buf, hc, hd⟩ := h s
    rw [hd, hsock, scripted_send _ hc]
  by_cases ho : u32At m 4 ∈ [2, 36, 42]
  · refine ⟨_, .silent ho, fun s => ?_⟩
    rw [h1 ho s]
    show _ = Except.ok (⟨s.incoming, s.outgoing ++ []⟩ : Script ε)
    rw [List.append_nil]
  cases ht : helloType fs.layout (u32At m 4) with
  | none => exact ⟨_, .other ho ht, hrep _ _ _ (h2 ho ht)⟩
  | some t =>
    obtain ⟨h4, h5, h6⟩ := h3 t ht
    by_cases he : ∃ a, Encodes t a m
    · obtain ⟨a, he⟩ := he
      by_cases hs : HelloSmall a
      · refine ⟨_, .small ht he hs, fun s => ?_⟩
        rw [h5 a he (fun h => (helloRoom_iff halloc a).mp h hs) s, if_pos]
        cases a <;> first | exact hs.elim | exact hs.2.2
      · obtain ⟨e, p, hp, hr⟩ := h4 a he ((helloRoom_iff halloc a).mpr hs)
        exact ⟨_, .answer ht he hs hp, hrep _ _ _ hr⟩
    · exact ⟨_, .garbage ht fun a h => he ⟨a, h⟩, h6 fun a h => he ⟨a, h⟩⟩

/-- **C57**, a session with any client: after the handshake the client sends any messages of at most 8192 bytes and
closes the connection.  Whatever the schedule of the program's `n` threads, they come to an end.  A panic ends its
thread, and `n` malformed messages fill the error channel, so that each further one stops its thread for good.  So
the threads receive the messages up to the one that takes the last thread, if there is one; they have sent the
reply to the handshake and, in some order, the reactions to these messages. -/
theorem C57_session_exact (e0 : ε) (uid gid : UInt32) (alloc : Nat → Nat) (halloc : ∀ n, alloc n % 8 = 0)
    (bad : List Bytes) (good : Bytes)
    (hbad : ∀ m ∈ bad, m.length ≤ 8192 ∧ IsFuseInit m ∧ u32At m 40 ≠ 7)
    (hgood : good.length ≤ 8192 ∧ IsFuseInit good ∧ u32At good 40 = 7)
    (msgs : List Bytes) (hmsgs : ∀ m ∈ msgs, m.length ≤ 8192) :
    ∃ (conn : FuseConnection) (p : Bytes) (sent : List Bytes) (reply : Bytes → Option (List Bytes)),
      FuseServer.Connects {} (scripted (.connectionClosed e0))
        ⟨bad.map .ok ++ .ok good :: msgs.map .ok, []⟩ (.ok conn, ⟨msgs.map .ok, sent⟩) ∧
      sent = bad.map (fun m => frame (idOf m) 0 (le32 7 ++ le32 36 ++ List.replicate 56 0)) ++
        [frame (idOf good) 0 p] ∧
      u32At p 0 = 7 ∧ u32At p 4 = min (u32At good 44) 36 ∧
      conn.layout.versionMinor.toNat = min (u32At good 44) 36 ∧
      (∀ m, Acceptable m → HelloReacts uid gid conn.layout m (reply m)) ∧
      ∀ (bufs : List Bytes) (_ : ∀ b ∈ bufs, b.length = max conn.recvBufLen 8192)
        (es : List (Event ε)) (q : Pool (Script ε) ε),
        let srv := Hello.service ⟨scripted (.connectionClosed e0), conn.layout, uid, gid, alloc⟩
        let n := bufs.length
        Pool.Run srv (Pool.start ⟨msgs.map .ok, sent⟩ bufs) es q →
        es.length ≤ 2 * msgs.length + n ∧
        (q.Stuck srv → ∃ done rest, done ++ rest = msgs ∧
          (∀ k, k < done.length → lostBy reply n (done.take k) < n) ∧
          (rest ≠ [] → lostBy reply n done = n) ∧
          q.world.incoming = rest.map .ok ∧
          q.world.outgoing.Perm (sent ++ done.flatMap (answered reply)) ∧
          q.channel.length = min n (malformedIn done) ∧
          (q.workers.map Worker.blocked).sum = malformedIn done - n ∧
          (q.workers.map Worker.panicked).sum = panicsIn reply done ∧
          ∀ w ∈ q.workers, w = .finished ∨ w.blocked = 1 ∨ w.panicked = 1) := by
  obtain ⟨conn, p, h1, h2, h3, h4, -⟩ := C20_fuse_script (.connectionClosed e0)
    (fun r p => (FuseServer.initFn {} r p ()).1) bad good hbad hgood (msgs.map .ok)
  let fs : Hello (Script ε) ε := ⟨scripted (.connectionClosed e0), conn.layout, uid, gid, alloc⟩
  have hex : ∀ m, ∃ o, Acceptable m → (HelloReacts uid gid conn.layout m o ∧ ∀ s, fs.dispatch ⟨m⟩ s =
      match o with
      | some out => .ok ⟨s.incoming, s.outgoing ++ out⟩
      | none => .error .panic) := by
    intro m
    by_cases ha : Acceptable m
    · obtain ⟨o, h⟩ := hello_reacts fs _ rfl halloc ha
      exact ⟨o, fun _ => h⟩
    · exact ⟨none, fun h => absurd h ha⟩
  let reply := fun m => Classical.choose (hex m)
  have hreply := fun m => Classical.choose_spec (hex m)
  refine ⟨conn, p, _, reply, h1, rfl, h2, h3, h4, fun m ha => (hreply m ha).1, ?_⟩
  intro bufs hb es q srv n hrun
  exact C26_exact (srv := srv) (e0 := e0) (msgs := msgs) (reply := reply) rfl _ 8192 bufs
    (fun b hb' => by rw [hb b hb']; omega) hmsgs (fun m hm ha s => ⟨.panic, (hreply m ha).2 s⟩) es q hrun

theorem lostBy_mono (reply : Bytes → Option (List Bytes)) (n : Nat) (a b : List Bytes) :
    lostBy reply n a ≤ lostBy reply n (a ++ b) := by
  unfold lostBy panicsIn malformedIn
  rw [List.countP_append, List.countP_append]
  omega

/-- **C57**, the clients that can rely on the program: if there are enough threads for the panics and the malformed
messages, all messages are received and the reactions to all of them are sent. -/
theorem C57_session_enough (e0 : ε) (uid gid : UInt32) (alloc : Nat → Nat) (halloc : ∀ n, alloc n % 8 = 0)
    (good : Bytes) (hgood : good.length ≤ 8192 ∧ IsFuseInit good ∧ u32At good 40 = 7)
    (msgs : List Bytes) (hmsgs : ∀ m ∈ msgs, m.length ≤ 8192) :
    ∃ (conn : FuseConnection) (sent : List Bytes) (reply : Bytes → Option (List Bytes)),
      FuseServer.Connects {} (scripted (.connectionClosed e0))
        ⟨.ok good :: msgs.map .ok, []⟩ (.ok conn, ⟨msgs.map .ok, sent⟩) ∧
      (∀ m, Acceptable m → HelloReacts uid gid conn.layout m (reply m)) ∧
      ∀ (bufs : List Bytes) (_ : ∀ b ∈ bufs, b.length = max conn.recvBufLen 8192)
        (_ : panicsIn reply msgs + (malformedIn msgs - bufs.length) < bufs.length)
        (es : List (Event ε)) (q : Pool (Script ε) ε),
        let srv := Hello.service ⟨scripted (.connectionClosed e0), conn.layout, uid, gid, alloc⟩
        Pool.Run srv (Pool.start ⟨msgs.map .ok, sent⟩ bufs) es q → q.Stuck srv →
        q.world.incoming = [] ∧ q.world.outgoing.Perm (sent ++ msgs.flatMap (answered reply)) := by
  obtain ⟨conn, p, sent, reply, h1, -, -, -, -, h2, h3⟩ :=
    C57_session_exact e0 uid gid alloc halloc [] good nofun hgood msgs hmsgs
  refine ⟨conn, sent, reply, h1, h2, ?_⟩
  intro bufs hb hlt es q srv hrun hst
  obtain ⟨done, rest, hsplit, -, hlast, hin, hout, -⟩ := (h3 bufs hb es q hrun).2 hst
  have hrest : rest = [] := Classical.byContradiction fun hne => by
    have := lostBy_mono reply bufs.length done rest
    rw [hlast hne, hsplit] at this
    unfold lostBy at this
    omega
  subst hrest
  rw [List.append_nil] at hsplit
  subst hsplit
  exact ⟨hin, hout⟩

/-- A request for the listing with a buffer of 16 bytes. -/
def smallListing (unique : UInt64) : Bytes := (ClientReq.readdir { fh := 1002, size := 16 }).message unique 1 0 0 0 0

theorem smallListing_panics {uid gid : UInt32} {layout : FuseLayout} (hm : 9 ≤ layout.versionMinor) {o}
    (h : HelloReacts uid gid layout (smallListing 6) o) : o = none := by
  have he : Encodes (.readdir layout) (.readdir { fh := 1002, size := 16 }) (smallListing 6) := by
    have := message_encodes (a := .readdir { fh := 1002, size := 16 }) (t := .readdir layout) (unique := 6) (nodeid := 1)
      (uid := 0) (gid := 0) (pid := 0) (padding := 0) (tail := []) hm (by show (1 : UInt64) ≠ 0; decide) (by decide) (by decide)
    rwa [List.append_nil] at this
  exact h.unique (.small (by rw [show u32At (smallListing 6) 4 = 28 by decide +kernel]; rfl) he ⟨by decide, by decide, by decide⟩)

/-- **C57** fails: a client whose requests are all well-formed stops a program of any number of threads.  After as
many requests for a listing with a small buffer as there are threads, a LOOKUP of the file is not even received. -/
theorem C57_violated_session (e0 : ε) (uid gid : UInt32) (alloc : Nat → Nat) (halloc : ∀ n, alloc n % 8 = 0)
    (good : Bytes) (hgood : good.length ≤ 8192 ∧ IsFuseInit good ∧ u32At good 40 = 7) (h9 : 9 ≤ u32At good 44)
    (n : Nat) :
    let msgs := List.replicate n (smallListing 6) ++ [(ClientReq.lookup helloTxt).message 4 1 0 0 0 0]
    ∃ (conn : FuseConnection) (sent : List Bytes),
      FuseServer.Connects {} (scripted (.connectionClosed e0))
        ⟨.ok good :: msgs.map .ok, []⟩ (.ok conn, ⟨msgs.map .ok, sent⟩) ∧
      ∀ (bufs : List Bytes) (_ : bufs.length = n) (_ : ∀ b ∈ bufs, b.length = max conn.recvBufLen 8192)
        (es : List (Event ε)) (q : Pool (Script ε) ε),
        let srv := Hello.service ⟨scripted (.connectionClosed e0), conn.layout, uid, gid, alloc⟩
        Pool.Run srv (Pool.start ⟨msgs.map .ok, sent⟩ bufs) es q → q.Stuck srv →
        q.world.incoming = [.ok ((ClientReq.lookup helloTxt).message 4 1 0 0 0 0)] ∧ q.world.outgoing = sent := by
  intro msgs
  have hsmall : Acceptable (smallListing 6) ∧ (smallListing 6).length ≤ 8192 := by decide +kernel
  obtain ⟨conn, p, sent, reply, h1, hsent, -, -, hmin, h2, h3⟩ :=
    C57_session_exact e0 uid gid alloc halloc [] good nofun hgood msgs (by
      intro m hm
      simp only [msgs, List.mem_append, List.mem_replicate, List.mem_singleton] at hm
      rcases hm with ⟨_, rfl⟩ | rfl
      · exact hsmall.2
      · decide +kernel)
  refine ⟨conn, sent, h1, ?_⟩
  intro bufs hn hb es q srv hrun hst
  have h9' : 9 ≤ conn.layout.versionMinor := by
    rw [UInt16.le_iff_toNat_le, hmin]
    show 9 ≤ _
    omega
  have hnone : reply (smallListing 6) = none := smallListing_panics h9' (h2 _ hsmall.1)
  have hlost : ∀ k, lostBy reply n (List.replicate k (smallListing 6)) = k := by
    intro k
    unfold lostBy panicsIn malformedIn
    rw [List.countP_replicate, List.countP_replicate, if_pos (by simp [hsmall.1, hnone]), if_neg (by simp [hsmall.1])]
    omega
  obtain ⟨done, rest, hsplit, hearly, hlast, hin, hout, -⟩ := (h3 bufs hb es q hrun).2 hst
  rw [hn] at hearly hlast
  have hle : done.length ≤ n := Nat.le_of_not_lt fun h => by
    have := hearly n h
    have ht : done.take n = List.replicate n (smallListing 6) := by
      have : (done ++ rest).take n = msgs.take n := by rw [hsplit]
      rw [List.take_append_of_le_length (by omega)] at this
      rw [this]
      exact List.take_left' List.length_replicate
    rw [ht, hlost] at this
    omega
  have hdone : done = List.replicate done.length (smallListing 6) := by
    have : (done ++ rest).take done.length = msgs.take done.length := by rw [hsplit]
    rw [List.take_left' rfl, List.take_append_of_le_length (by rw [List.length_replicate]; exact hle),
      List.take_replicate, Nat.min_eq_left hle] at this
    exact this
  have hrest : rest ≠ [] := by
    intro h
    have := congrArg List.length hsplit
    rw [h] at this
    simp [msgs] at this
    omega
  have hlen : done.length = n := by
    have := hlast hrest
    rw [hdone, hlost] at this
    exact this
  rw [hlen] at hdone
  subst hdone
  have hr : rest = [(ClientReq.lookup helloTxt).message 4 1 0 0 0 0] := List.append_cancel_left hsplit
  rw [hr] at hin
  refine ⟨hin, ?_⟩
  have hz : (List.replicate n (smallListing 6)).flatMap (answered reply) = [] := by
    rw [List.flatMap_eq_nil_iff]
    intro m hm
    rw [(List.mem_replicate.mp hm).2]
    show (if Acceptable (smallListing 6) then (reply (smallListing 6)).getD [] else []) = []
    rw [hnone, if_pos hsmall.1]; rfl
  rw [hz, List.append_nil, hsent] at hout
  rw [hsent]
  exact List.perm_singleton.mp hout

/-- Of two threads, one small listing takes one, and two take both; so do one small listing and three malformed
messages, as the error channel has room for two. -/
example (fs : Hello (Script Unit) Unit) (h : 9 ≤ fs.layout.versionMinor) :
    (∀ reply, (∀ m, Acceptable m → HelloReacts 1000 1000 fs.layout m (reply m)) →
      lostBy reply 2 [smallListing 6] = 1 ∧ lostBy reply 2 [smallListing 6, smallListing 6] = 2 ∧
      lostBy reply 2 [[1], smallListing 6, [2], [3]] = 2) := by
  intro reply hr
  have ha : Acceptable (smallListing 6) := by decide +kernel
  have hn := smallListing_panics h (hr _ ha)
  have h1 : ∀ x : UInt8, ¬ Acceptable [x] := fun x h => absurd h.1 (by simp)
  simp [lostBy, panicsIn, malformedIn, List.countP_cons, ha, hn, h1]

end Fuse
