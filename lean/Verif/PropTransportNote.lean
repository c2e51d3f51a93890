import Verif.PropTransportMany
import Verif.PropOld
import Verif.PropNote

/-!
# C81, C82 and C87: listeners and old clients on a device

What C81_mount says of filesystems that announce things, and C82_exact of clients of old versions, with the handshake and
system call by system call.
-/

namespace Fuse
open Spec

variable {σ ε α : Type}

/-! ## Filesystems that announce things -/

/-- C87: a program that uses a filesystem through a device is told the same, in the same order, as if it used the filesystem
directly, with all that the filesystem announces on its own (compare C81_mount). -/
theorem C87_news {S : Type} {p : Peer σ (Convo (Option α))} {sock : Socket σ ε} (hd : OnLine (talkLine _) sock p true)
    (act : Caller → Op → S → Reaction × S) (checks : Bool) (os : Os) (addr : Op → Nat)
    (haddr : ∀ op, addr op % 8 = 0)
    (hbrief : ∀ who op s, ∀ a ∈ (act who op s).1.before ++ (act who op s).1.after, a.size < 2 ^ 32)
    (server : FuseServer) (ids : Nat → UInt64) (hids : ∀ n, ids n ≠ 0) (newer : List Bytes)
    (init : Bytes) (hnewer : ∀ m ∈ newer, m.length ≤ 8192 ∧ IsFuseInit m ∧ u32At m 40 ≠ 7)
    (hinit : init.length ≤ 8192 ∧ IsFuseInit init ∧ u32At init 40 = 7 ∧ 12 ≤ u32At init 44) (use : Listener α) (s : S)
    (hv : ∀ ext, use.Valid act ext (max (server.initReply.maxWrite.toNat + 4096) 8192) s) (d : σ)
    (hp : p.client d = ([], fun _ => use.session ids init newer)) :
    ∃ conn w, server.Connects (sock.beside (Option S)) (some s, d) (.ok conn, w) ∧
      ∀ buf : Bytes, conn.recvBufLen ≤ buf.length →
        ∃ d', FuseServes (sock.beside (Option S)) ((⟨act, conn.layout, checks, os, addr⟩ : NoteServer S).handlers
            (sock.beside (Option S))) buf w (.ok (), (some (use.run act s).2, d')) ∧
          (p.client d').2 (p.client d').1 = .done (some (use.run act s).1) := by
  obtain ⟨conn, ⟨c, t⟩, h1, h2⟩ := C81_mount act checks os addr haddr server ids hids newer init hnewer hinit use s hv
  rw [← hp] at h1
  obtain ⟨o, d1, h3, h4, h5⟩ := (C87_connect hd server (some s) d).2 _ _ _ h1
  cases o <;> try exact h5.elim
  cases h5
  refine ⟨conn, (c, d1), h3, fun buf hb => ?_⟩
  obtain ⟨heard, k, h6, h7⟩ := h2 buf hb
  rw [← h4] at h6
  obtain ⟨o, d2, h8, h9, h10⟩ := (C87_serve hd
    (fun hm => note_handlers_mirror hm ⟨act, conn.layout, checks, os, addr⟩ hbrief) buf c d1).2 _ _ _ h6
  cases o <;> try exact h10.elim
  exact ⟨d2, h8, by rw [h9]; exact h7⟩

/-! ## Clients of old versions -/

/-- C82 exactly, through a whole mount: as long as no WRITE before 7.9 has less than 16 bytes, a program ends with the result,
and the filesystem in the state, that it would have had if CREATE had no mode before 7.12 (compare C82_exact). -/
theorem C82_mount_exact {S α : Type} (act : Caller → Op → S → Ans × S) (checks : Bool) (os : Os) (addr : Op → Nat)
    (haddr : ∀ op, addr op % 8 = 0) (server : FuseServer) (ids : Nat → UInt64) (hids : ∀ n, ids n ≠ 0) (newer : List Bytes)
    (init : Bytes) (hnewer : ∀ m ∈ newer, m.length ≤ 8192 ∧ IsFuseInit m ∧ u32At m 40 ≠ 7)
    (hinit : init.length ≤ 8192 ∧ IsFuseInit init ∧ u32At init 40 = 7 ∧ 7 ≤ u32At init 44) (use : Use α) (s : S)
    (seen : Caller → Op → S → Ans × S) (hseen : seen = fun who op s => act who (op.seenIn (min (u32At init 44) 36)) s)
    (hv : ∀ ext, use.ValidIn seen (min (u32At init 44) 36) ext (max (server.initReply.maxWrite.toNat + 4096) 8192) s)
    (harr : use.AsksOnly seen (Op.Arrives (min (u32At init 44) 36)) s) :
    ∃ conn w, server.Connects (Wired.socket (Option S) _) (some s, [], fun _ => use.sessionIn ids init newer) (.ok conn, w) ∧
      ∀ buf : Bytes, conn.recvBufLen ≤ buf.length →
        ∃ heard k, FuseServes (Wired.socket (Option S) _) ((⟨act, conn.layout, checks, os, addr⟩ : RpcServer S).handlers
            (Wired.socket (Option S) _)) buf w (.ok (), (some (use.run seen s).2, heard, k)) ∧
          k heard = .done (some (use.run seen s).1) := by
  obtain ⟨conn, p, q, k, h1, h2, h3, h4, h5, h6⟩ := connects server init
    (fun reply => use.talkIn ids (u32At reply 4) ((u32At reply 12).testBit 29) 0) hinit (some s) newer hnewer
    minReadBuffer [] (fun _ => use.sessionIn ids init newer) (List.length_replicate ..) rfl
  refine ⟨conn, _, h1, fun buf hbuf => ?_⟩
  rw [h5] at hbuf
  rw [h6] at h2
  exact old_serves ⟨act, conn.layout, checks, os, addr⟩ haddr h4 (by omega) h3.symm hids (fun _ h => h)
    (fun _ _ _ _ => by rw [hseen]) some use 0 s buf
    (Use.ValidIn.mono hbuf use (hv _)) harr [p] k h2

/-- C87: the same system call by system call, on a device. -/
theorem C87_old_exact {S : Type} {p : Peer σ (Convo (Option α))} {sock : Socket σ ε} (hd : OnLine (talkLine _) sock p true)
    (act : Caller → Op → S → Ans × S) (checks : Bool) (os : Os) (addr : Op → Nat)
    (haddr : ∀ op, addr op % 8 = 0) (server : FuseServer) (ids : Nat → UInt64) (hids : ∀ n, ids n ≠ 0) (newer : List Bytes)
    (init : Bytes) (hnewer : ∀ m ∈ newer, m.length ≤ 8192 ∧ IsFuseInit m ∧ u32At m 40 ≠ 7)
    (hinit : init.length ≤ 8192 ∧ IsFuseInit init ∧ u32At init 40 = 7 ∧ 7 ≤ u32At init 44) (use : Use α) (s : S)
    (seen : Caller → Op → S → Ans × S) (hseen : seen = fun who op s => act who (op.seenIn (min (u32At init 44) 36)) s)
    (hv : ∀ ext, use.ValidIn seen (min (u32At init 44) 36) ext (max (server.initReply.maxWrite.toNat + 4096) 8192) s)
    (harr : use.AsksOnly seen (Op.Arrives (min (u32At init 44) 36)) s) (d : σ)
    (hp : p.client d = ([], fun _ => use.sessionIn ids init newer)) :
    ∃ conn w, server.Connects (sock.beside (Option S)) (some s, d) (.ok conn, w) ∧
      ∀ buf : Bytes, conn.recvBufLen ≤ buf.length →
        ∃ d', FuseServes (sock.beside (Option S)) ((⟨act, conn.layout, checks, os, addr⟩ : RpcServer S).handlers
            (sock.beside (Option S))) buf w (.ok (), (some (use.run seen s).2, d')) ∧
          (p.client d').2 (p.client d').1 = .done (some (use.run seen s).1) := by
  obtain ⟨conn, ⟨c, t⟩, h1, h2⟩ := C82_mount_exact act checks os addr haddr server ids hids newer init hnewer hinit use s seen
    hseen hv harr
  rw [← hp] at h1
  obtain ⟨o, d1, h3, h4, h5⟩ := (C87_connect hd server (some s) d).2 _ _ _ h1
  cases o <;> try exact h5.elim
  cases h5
  refine ⟨conn, (c, d1), h3, fun buf hb => ?_⟩
  obtain ⟨heard, k, h6, h7⟩ := h2 buf hb
  rw [← h4] at h6
  obtain ⟨o, d2, h8, h9, h10⟩ := (C87_serve hd
    (fun hm => handlers_mirror hm ⟨act, conn.layout, checks, os, addr⟩) buf c d1).2 _ _ _ h6
  cases o <;> try exact h10.elim
  exact ⟨d2, h8, by rw [h9]; exact h7⟩

/-! ## Concrete cases -/

namespace TransportNote
open Transport

theorem act_brief (who : Caller) (op : Op) (s : Bytes) :
    ∀ a ∈ (Note.act who op s).1.before ++ (Note.act who op s).1.after, a.size < 2 ^ 32 := by
  intro a ha
  unfold Note.act at ha
  split at ha
  all_goals simp only [List.mem_append, List.mem_cons, List.not_mem_nil, or_false, false_or] at ha
  · rcases ha with rfl | rfl
    · show 40 < 2 ^ 32; decide
    · show 24 < 2 ^ 32; decide
  · rcases ha with rfl | rfl | rfl
    · show 32 + 1 + 1 < 2 ^ 32; decide
    · show 40 + 1 + 1 < 2 ^ 32; decide
    · show 24 < 2 ^ 32; decide
  · subst ha; show 24 < 2 ^ 32; decide
  · subst ha; show 24 < 2 ^ 32; decide

/-- C87_news: the program of C81, through `fuse-linux`, with 5 interruptions. -/
example : ∃ (sock : Socket (Chatty (Option _)) Errno) (conn : FuseConnection) (w : Option Bytes × _),
    OnLinux (sys (Option _)) ⟨3, true⟩ sock ∧
    (({} : FuseServer).maxWrite 65536).Connects (sock.beside (Option Bytes))
      (some [], ⟨([], fun _ => Note.program.session (fun _ => 7) (initMessage 4 7 34 [65536, 0])
        [initMessage 2 8 0 [65536, 0]]), [true, true, false, true, false, false, true, true]⟩) (.ok conn, w) ∧
    ∀ buf : Bytes, conn.recvBufLen ≤ buf.length → ∃ d', FuseServes (sock.beside (Option Bytes))
        ((⟨Note.act, conn.layout, true, .linux, fun _ => 0x1000⟩ : NoteServer Bytes).handlers
          (sock.beside (Option Bytes))) buf w (.ok (), (some [], d')) ∧
      d'.client.2 d'.client.1 = .done (some Note.told) := by
  obtain ⟨sock, hs⟩ := linux_talk_socket (s := ⟨3, true⟩) (device (Option _) 3)
  obtain ⟨conn, w, h⟩ := C87_news (.linux (s := ⟨3, true⟩) (device (Option _) 3) hs) Note.act true .linux
    (fun _ => 0x1000) (fun _ => (by decide : 0x1000 % 8 = 0)) act_brief (({} : FuseServer).maxWrite 65536) (fun _ => 7)
    (fun _ => show (7 : UInt64) ≠ 0 by decide) [initMessage 2 8 0 [65536, 0]] (initMessage 4 7 34 [65536, 0]) (by decide)
    (by decide) Note.program []
    (fun ext => Listener.Valid.mono (n := 200) (Nat.le_trans (by decide : 200 ≤ 8192) (Nat.le_max_right ..)) Note.program
      (Note.program_valid ext))
    ⟨([], fun _ => _), [true, true, false, true, false, false, true, true]⟩ rfl
  rw [Note.program_run] at h
  exact ⟨sock, conn, w, hs, h⟩

/-- CREATE with a mode, and a WRITE of 16 bytes. -/
def older : Use (List Ans) :=
  Rpc.script [(Rpc.bob, .create Rpc.root [0x61] 1 0 0o644 0), (Rpc.bob, .write Rpc.root 1 2 (List.replicate 16 3) 0 none 0)] []

/-- What is seen of it in version 7.8. -/
theorem older_run : older.run (fun who op s => OldClients.remember who (op.seenIn 8) s) [] =
    ([OldClients.sample .created, OldClients.sample .written],
      [(Rpc.bob, .create Rpc.root [0x61] 1 0 0 0), (Rpc.bob, .write Rpc.root 1 2 (List.replicate 16 3) 0 none 0)]) := by
  decide +kernel

/-- C82_mount_exact: a client that offers 8.0 and 7.8. -/
example : ∃ conn w, (({} : FuseServer).maxWrite 65536).Connects (Wired.socket (Option _) _)
      (some [], [], fun _ => older.sessionIn (fun _ => 7) (initMessage 4 7 8 [65536, 0]) [initMessage 2 8 0 [65536, 0]])
      (.ok conn, w) ∧
    ∀ buf : Bytes, conn.recvBufLen ≤ buf.length → ∃ heard k, FuseServes (Wired.socket (Option _) _)
        ((⟨OldClients.remember, conn.layout, true, .linux, fun _ => 0x1000⟩ : RpcServer _).handlers (Wired.socket (Option _) _))
        buf w (.ok (), (some [(Rpc.bob, .create Rpc.root [0x61] 1 0 0 0),
          (Rpc.bob, .write Rpc.root 1 2 (List.replicate 16 3) 0 none 0)], heard, k)) ∧
      k heard = .done (some [OldClients.sample .created, OldClients.sample .written]) := by
  have h := C82_mount_exact OldClients.remember true .linux (fun _ => 0x1000) (fun _ => (by decide : 0x1000 % 8 = 0))
    (({} : FuseServer).maxWrite 65536) (fun _ => 7) (fun _ => show (7 : UInt64) ≠ 0 by decide) [initMessage 2 8 0 [65536, 0]]
    (initMessage 4 7 8 [65536, 0]) (by decide) (by decide) older []
    (fun who op s => OldClients.remember who (op.seenIn 8) s) (by
      rw [show min (u32At (initMessage 4 7 8 [65536, 0]) 44) 36 = 8 by decide])
    (fun ext => Use.ValidIn.mono (n := 8192) (Nat.le_max_right ..) _ (by cases ext <;> decide +kernel)) (by decide +kernel)
  rwa [older_run] at h

/-- C87_old_exact for it, through `fuse-libc`, with 3 interruptions. -/
example : ∃ (sock : Socket (Libc.Thread (Chatty (Option _))) Libc.LibcError) (conn : FuseConnection) (w : Option (List _) × _),
    OnLibc (sys (Option _)) ⟨3, true⟩ sock ∧
    (({} : FuseServer).maxWrite 65536).Connects (sock.beside _)
      (some [], ⟨⟨([], fun _ => older.sessionIn (fun _ => 7) (initMessage 4 7 8 [65536, 0]) []), [false, true, true, true]⟩, 0⟩)
      (.ok conn, w) ∧
    ∀ buf : Bytes, conn.recvBufLen ≤ buf.length → ∃ d', FuseServes (sock.beside _)
        ((⟨OldClients.remember, conn.layout, true, .linux, fun _ => 0x1000⟩ : RpcServer _).handlers (sock.beside _)) buf w
        (.ok (), (some [(Rpc.bob, .create Rpc.root [0x61] 1 0 0 0),
          (Rpc.bob, .write Rpc.root 1 2 (List.replicate 16 3) 0 none 0)], d')) ∧
      d'.sys.client.2 d'.sys.client.1 = .done (some [OldClients.sample .created, OldClients.sample .written]) := by
  obtain ⟨sock, hs⟩ := libc_talk_socket (s := ⟨3, true⟩) (device (Option (List Ans)) 3)
  have h := C87_old_exact (.libc (s := ⟨3, true⟩) (device (Option _) 3) hs) OldClients.remember true .linux (fun _ => 0x1000)
    (fun _ => (by decide : 0x1000 % 8 = 0)) (({} : FuseServer).maxWrite 65536) (fun _ => 7)
    (fun _ => show (7 : UInt64) ≠ 0 by decide) [] (initMessage 4 7 8 [65536, 0]) nofun (by decide) older []
    (fun who op s => OldClients.remember who (op.seenIn 8) s) (by
      rw [show min (u32At (initMessage 4 7 8 [65536, 0]) 44) 36 = 8 by decide])
    (fun ext => Use.ValidIn.mono (n := 8192) (Nat.le_max_right ..) _ (by cases ext <;> decide +kernel)) (by decide +kernel)
    ⟨⟨([], fun _ => _), [false, true, true, true]⟩, 0⟩ rfl
  rw [older_run] at h
  obtain ⟨conn, w, h⟩ := h
  exact ⟨sock, conn, w, hs, h⟩

end TransportNote

end Fuse
