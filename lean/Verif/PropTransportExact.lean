import Verif.PropHostileAll
import Verif.PropDevAll

/-!
# C80, C84 and C87 exactly, with the handshake and on a device

What C84_exact and C80_exact say of serving a client that has been accepted, through a whole mount, and system
call by system call.  Nothing is left out but what the client has to do to be accepted.
-/

namespace Fuse
open Spec

variable {σ ε α : Type}

/-! ## Filesystems and clients that send anything -/

/-- C84 exactly, through a whole mount, with any server made with the builder: what a client that has been accepted
brings about is what is made of its messages, and nothing else (compare C84_exact). -/
theorem C84_mount_exact {S α : Type} (act : Caller → Op → S → Ans × S) (checks : Bool) (os : Os) (addr : Op → Nat)
    (haddr : ∀ op, addr op % 8 = 0) (server : FuseServer) (newer : List Bytes) (init : Bytes)
    (hnewer : ∀ m ∈ newer, m.length ≤ 8192 ∧ IsFuseInit m ∧ u32At m 40 ≠ 7)
    (hinit : init.length ≤ 8192 ∧ IsFuseInit init ∧ u32At init 40 = 7 ∧ 12 ≤ u32At init 44) (inv : S → Prop)
    (hinv : ∀ ext, KeepsAll act ext inv) (body : Bytes → Talk α) (s : S) (hs : inv s) :
    ∃ conn reply w, server.Connects (Wired.socket (Option S) _) (some s, [], fun _ => Client.handshake init body newer)
        (.ok conn, w) ∧
      ∀ buf : Bytes, ∃ r s' out heard k, Goes act conn.layout checks buf.length (body reply) s r s' ∧
        (∀ x, s' = some x → inv x) ∧
        FuseServes (Wired.socket (Option S) _) ((⟨act, conn.layout, checks, os, addr⟩ : RpcServer S).guards
          (Wired.socket (Option S) _)) buf w (out, (s', heard, k)) ∧
        match r, s' with
        | some a, _ => out = .ok () ∧ k heard = .done (some a)
        | none, some _ => ∃ e, out = .err e
        | none, none => True := by
  obtain ⟨conn, p, q, k, h1, h2, h3, h4, h5, -⟩ := connects server init body
    ⟨hinit.1, hinit.2.1, hinit.2.2.1, by omega⟩ (some s) newer hnewer
    minReadBuffer [] (fun _ => Client.handshake init body newer) (List.length_replicate ..) rfl
  refine ⟨conn, q, _, h1, fun buf => ?_⟩
  have h12 : 12 ≤ conn.layout.versionMinor := by
    rw [UInt16.le_iff_toNat_le, h4]
    show 12 ≤ min _ 36
    omega
  exact goes_serves ⟨act, conn.layout, checks, os, addr⟩ haddr h12 h3.symm (hinv _) some (body q) s buf hs [p] k h2

/-- C87: the same system call by system call, on a device. -/
theorem C87_confined_exact {S : Type} {p : Peer σ (Convo (Option α))} {sock : Socket σ ε}
    (hd : OnLine (talkLine _) sock p true) (act : Caller → Op → S → Ans × S) (checks : Bool) (os : Os)
    (addr : Op → Nat) (haddr : ∀ op, addr op % 8 = 0) (server : FuseServer) (newer : List Bytes) (init : Bytes)
    (hnewer : ∀ m ∈ newer, m.length ≤ 8192 ∧ IsFuseInit m ∧ u32At m 40 ≠ 7)
    (hinit : init.length ≤ 8192 ∧ IsFuseInit init ∧ u32At init 40 = 7 ∧ 12 ≤ u32At init 44) (inv : S → Prop)
    (hinv : ∀ ext, KeepsAll act ext inv) (body : Bytes → Talk α) (s : S) (hs : inv s) (d : σ)
    (hp : p.client d = ([], fun _ => Client.handshake init body newer)) :
    ∃ conn reply w, server.Connects (sock.beside (Option S)) (some s, d) (.ok conn, w) ∧
      ∀ buf : Bytes, ∃ r s' out d', Goes act conn.layout checks buf.length (body reply) s r s' ∧
        (∀ x, s' = some x → inv x) ∧
        FuseServes (sock.beside (Option S)) ((⟨act, conn.layout, checks, os, addr⟩ : RpcServer S).guards
          (sock.beside (Option S))) buf w (out, (s', d')) ∧
        match r, s' with
        | some a, _ => out = .ok () ∧ (p.client d').2 (p.client d').1 = .done (some a)
        | none, some _ => ∃ e, out = .err e
        | none, none => True := by
  obtain ⟨conn, reply, ⟨c, t⟩, h1, h2⟩ := C84_mount_exact act checks os addr haddr server newer init hnewer hinit inv
    hinv body s hs
  rw [← hp] at h1
  obtain ⟨o, d1, h3, h4, h5⟩ := (C87_connect hd server (some s) d).2 _ _ _ h1
  cases o <;> try exact h5.elim
  cases h5
  refine ⟨conn, reply, (c, d1), h3, fun buf => ?_⟩
  obtain ⟨r, s', out, heard, k, h6, h7, h8, h9⟩ := h2 buf
  rw [← h4] at h8
  obtain ⟨o, d2, h10, h11, h12⟩ := (C87_serve hd
    (fun hm => guards_mirror hm ⟨act, conn.layout, checks, os, addr⟩) buf c d1).2 _ _ _ h8
  refine ⟨r, s', o, d2, h6, h7, h10, ?_⟩
  cases r with
  | some a =>
    obtain ⟨rfl, h9⟩ := h9
    cases o <;> try exact h12.elim
    exact ⟨rfl, by rw [h11]; exact h9⟩
  | none =>
    cases s' with
    | none => trivial
    | some x =>
      obtain ⟨e, rfl⟩ := h9
      cases o <;> try exact h12.elim
      exact ⟨_, rfl⟩

/-! ## Character devices -/

theorem Spec.DevUse.LiveValid.mono {α S : Type} {act : Caller → DevOp → S → Ans × S} {n n' : Nat} (hn : n ≤ n')
    (use : DevUse α) : ∀ {s : Option S}, use.LiveValid act n s → use.LiveValid act n' s := by
  induction use with
  | done a => exact fun _ => trivial
  | call who node op k ih =>
    intro s h
    cases s with
    | none => exact ⟨by have := h.1; omega, ih _ h.2⟩
    | some x =>
      refine ⟨by have := h.1; omega, ?_⟩
      have h2 := h.2
      by_cases ha : op.Astray node
      · rw [if_pos ha] at h2 ⊢
        exact ih _ h2
      · rw [if_neg ha] at h2 ⊢
        exact ⟨h2.1, h2.2.1, ih _ h2.2.2⟩

/-- C80 exactly, with the handshake: programs see what they would see using the device directly, up to the first
POLL with node ID 0; from then on nothing is answered, and the device is lost (compare C80_exact). -/
theorem C80_session_exact {S α : Type} (act : Caller → DevOp → S → Ans × S) (server : CuseServer)
    (hname : server.deviceName.bytes.length + 97 < 2 ^ 32) (ids : Nat → UInt64) (hids : ∀ n, ids n ≠ 0)
    (newer : List Bytes) (init : Bytes) (hnewer : ∀ m ∈ newer, m.length ≤ 8192 ∧ IsCuseInit m ∧ u32At m 40 ≠ 7)
    (hinit : init.length ≤ 8192 ∧ IsCuseInit init ∧ u32At init 40 = 7 ∧ 9 ≤ u32At init 44) (use : DevUse α) (s : S)
    (hv : use.LiveValid act (max (server.maxWrite.toNat + 4096) 8192) (some s)) :
    ∃ conn w, server.Connects (Wired.socket (Option S) _) (some s, [], fun _ => use.session ids init newer) (.ok conn, w) ∧
      ∀ buf : Bytes, conn.recvBufLen ≤ buf.length →
        ∃ heard k, CuseServes (Wired.socket (Option S) _) ((⟨act, conn.layout⟩ : DevServer S).handlers
            (Wired.socket (Option S) _)) buf w
            (.err (.recv (.connectionClosed ())), ((use.live act (some s)).2, heard, k)) ∧
          k heard = .done (some (use.live act (some s)).1) := by
  obtain ⟨conn, p, q, k, h1, h2, h3, h4⟩ := cuse_connects server hname init (fun _ => use.talk ids 0) hinit (some s) newer
    hnewer minReadBuffer [] (fun _ => use.session ids init newer) (List.length_replicate ..) rfl
  refine ⟨conn, _, h1, fun buf hbuf => ?_⟩
  have h9 : 9 ≤ conn.layout.versionMinor := by
    rw [UInt16.le_iff_toNat_le, h3]
    show 9 ≤ min _ 36
    omega
  rw [h4] at hbuf
  exact dev_live_serves ⟨act, conn.layout⟩ h9 hids some use 0 (some s) buf (DevUse.LiveValid.mono hbuf use hv) [p] k h2

/-- C87: the same system call by system call, on a device. -/
theorem C87_device_exact {S : Type} {p : Peer σ (Convo (Option α))} {sock : Socket σ ε} {eof : Bool}
    (hd : OnLine (talkLine _) sock p eof) (act : Caller → DevOp → S → Ans × S) (server : CuseServer)
    (hname : server.deviceName.bytes.length + 97 < 2 ^ 32) (ids : Nat → UInt64) (hids : ∀ n, ids n ≠ 0)
    (newer : List Bytes) (init : Bytes) (hnewer : ∀ m ∈ newer, m.length ≤ 8192 ∧ IsCuseInit m ∧ u32At m 40 ≠ 7)
    (hinit : init.length ≤ 8192 ∧ IsCuseInit init ∧ u32At init 40 = 7 ∧ 9 ≤ u32At init 44) (use : DevUse α) (s : S)
    (hv : use.LiveValid act (max (server.maxWrite.toNat + 4096) 8192) (some s)) (d : σ)
    (hp : p.client d = ([], fun _ => use.session ids init newer)) :
    ∃ conn w, server.Connects (sock.beside (Option S)) (some s, d) (.ok conn, w) ∧
      ∀ buf : Bytes, conn.recvBufLen ≤ buf.length →
        ∃ e d', CuseServes (sock.beside (Option S)) ((⟨act, conn.layout⟩ : DevServer S).handlers (sock.beside (Option S)))
            buf w (.err (.recv e), ((use.live act (some s)).2, d')) ∧
          (p.client d').2 (p.client d').1 = .done (some (use.live act (some s)).1) := by
  obtain ⟨conn, ⟨c, t⟩, h1, h2⟩ := C80_session_exact act server hname ids hids newer init hnewer hinit use s hv
  rw [← hp] at h1
  obtain ⟨o, d1, h3, h4, h5⟩ := (C87_cuse_connect hd server (some s) d).2 _ _ _ h1
  cases o <;> try exact h5.elim
  cases h5
  refine ⟨conn, (c, d1), h3, fun buf hb => ?_⟩
  obtain ⟨heard, k, h6, h7⟩ := h2 buf hb
  rw [← h4] at h6
  obtain ⟨o, d2, h8, h9, h10⟩ := (C87_cuse_serve hd (fun hm => dev_handlers_mirror hm ⟨act, conn.layout⟩) buf c d1).2 _ _ _ h6
  cases o <;> try exact h10.elim
  rename_i e
  cases e <;> try exact h10.elim
  exact ⟨_, d2, h8, by rw [h9]; exact h7⟩

/-! ## Concrete cases -/

namespace TransportExact
open Transport

/-- C87_device_exact: a program that loses the device by a POLL with node ID 0, through `fuse-libc`, with 5
interruptions; it hears nothing any more. -/
example : ∃ (sock : Socket (Libc.Thread (Chatty (Option _))) Libc.LibcError) (conn : CuseConnection) (w : Option Bytes × _),
    OnLibc (sys (Option _)) ⟨3, false⟩ sock ∧
    CuseServer.Connects ⟨⟨[0x71]⟩, ⟨1, 2⟩, 0, 0, 65536⟩ (sock.beside (Option Bytes))
      (some [], ⟨⟨([], fun _ => DevAll.polls.session (fun _ => 7) (cuseInitMessage 4 7 40) [cuseInitMessage 2 8 0]),
        [true, true, false, true, false, false, true, true]⟩, 0⟩) (.ok conn, w) ∧
    ∀ buf : Bytes, conn.recvBufLen ≤ buf.length → ∃ e d', CuseServes (sock.beside (Option Bytes))
        ((⟨Dev.queue, conn.layout⟩ : DevServer Bytes).handlers (sock.beside (Option Bytes))) buf w
          (.err (.recv e), (none, d')) ∧
      d'.sys.client.2 d'.sys.client.1 = .done (some [.written 3, .polled 5, .broken, .silent, .broken, .broken]) := by
  obtain ⟨sock, hs⟩ := libc_talk_socket (s := ⟨3, false⟩) (device (Option _) 3)
  obtain ⟨conn, w, h⟩ := C87_device_exact (.libc (s := ⟨3, false⟩) (device (Option _) 3) hs) Dev.queue
    ⟨⟨[0x71]⟩, ⟨1, 2⟩, 0, 0, 65536⟩ (by show 1 + 97 < 2 ^ 32; omega) (fun _ => 7)
    (fun _ => show (7 : UInt64) ≠ 0 by decide) [cuseInitMessage 2 8 0] (cuseInitMessage 4 7 40) (by decide) (by decide)
    DevAll.polls [] (DevUse.LiveValid.mono (n := 8192) (Nat.le_max_right ..) DevAll.polls (by decide +kernel))
    ⟨⟨([], fun _ => _), [true, true, false, true, false, false, true, true]⟩, 0⟩ rfl
  rw [DevAll.polls_live] at h
  exact ⟨sock, conn, w, hs, h⟩

/-- C80_session_exact for it. -/
example : ∃ conn w, CuseServer.Connects ⟨⟨[0x71]⟩, ⟨1, 2⟩, 0, 0, 65536⟩ (Wired.socket (Option Bytes) _)
      (some [], [], fun _ => DevAll.polls.session (fun _ => 7) (cuseInitMessage 4 7 40) []) (.ok conn, w) ∧
    ∀ buf : Bytes, conn.recvBufLen ≤ buf.length → ∃ heard k, CuseServes (Wired.socket (Option Bytes) _)
        ((⟨Dev.queue, conn.layout⟩ : DevServer Bytes).handlers (Wired.socket (Option Bytes) _)) buf w
          (.err (.recv (.connectionClosed ())), (none, heard, k)) ∧
      k heard = .done (some [.written 3, .polled 5, .broken, .silent, .broken, .broken]) := by
  have h := C80_session_exact Dev.queue ⟨⟨[0x71]⟩, ⟨1, 2⟩, 0, 0, 65536⟩ (by show 1 + 97 < 2 ^ 32; omega) (fun _ => 7)
    (fun _ => show (7 : UInt64) ≠ 0 by decide) [] (cuseInitMessage 4 7 40) nofun (by decide)
    DevAll.polls [] (DevUse.LiveValid.mono (n := 8192) (Nat.le_max_right ..) DevAll.polls (by decide +kernel))
  rwa [DevAll.polls_live] at h

/-- C87_confined_exact: a client that sends messages of both kinds that C84 excludes, through `fuse-libc`, with 3
interruptions. -/
example : ∃ (sock : Socket (Libc.Thread (Chatty (Option _))) Libc.LibcError) (conn : FuseConnection) (w : Option (List _) × _),
    OnLibc (sys (Option _)) ⟨3, true⟩ sock ∧
    ({} : FuseServer).Connects (sock.beside _)
      (some [], ⟨⟨([], fun _ => Client.handshake (initMessage 4 7 34 [65536, 0])
        (fun _ => Hostile.sends (HostileAll.mixed ++ [hugeForget] ++ HostileAll.mixed) []) []), [false, true, true, true]⟩, 0⟩)
      (.ok conn, w) ∧
    ∀ buf : Bytes, ∃ r s' out d', Goes Hostile.note conn.layout true buf.length
        (Hostile.sends (HostileAll.mixed ++ [hugeForget] ++ HostileAll.mixed) []) [] r s' ∧
      FuseServes (sock.beside _) ((⟨Hostile.note, conn.layout, true, .linux, fun _ => 0x1000⟩ : RpcServer _).guards
        (sock.beside _)) buf w (out, (s', d')) := by
  obtain ⟨sock, hs⟩ := libc_talk_socket (s := ⟨3, true⟩) (device (Option (List (List Bytes))) 3)
  obtain ⟨conn, reply, w, h1, h2⟩ := C87_confined_exact (.libc (s := ⟨3, true⟩) (device (Option _) 3) hs) Hostile.note true
    .linux (fun _ => 0x1000) (fun _ => (by decide : 0x1000 % 8 = 0)) ({} : FuseServer) [] (initMessage 4 7 34 [65536, 0])
    nofun (by decide) (fun _ => True) (fun _ _ _ _ _ _ => ⟨Hostile.note_allowed _, trivial⟩)
    (fun _ => Hostile.sends (HostileAll.mixed ++ [hugeForget] ++ HostileAll.mixed) []) [] trivial
    ⟨⟨([], fun _ => _), [false, true, true, true]⟩, 0⟩ rfl
  refine ⟨sock, conn, w, hs, h1, fun buf => ?_⟩
  obtain ⟨r, s', out, d', h3, -, h4, -⟩ := h2 buf
  exact ⟨r, s', out, d', h3, h4⟩

/-- C84_mount_exact for it. -/
example : ∃ conn w, ({} : FuseServer).Connects (Wired.socket (Option (List (Caller × Op))) _)
      (some [], [], fun _ => Client.handshake (initMessage 4 7 34 [65536, 0])
        (fun _ => Hostile.sends (HostileAll.mixed ++ [hugeForget]) []) []) (.ok conn, w) ∧
    ∀ buf : Bytes, ∃ r s', Goes Hostile.note conn.layout true buf.length
      (Hostile.sends (HostileAll.mixed ++ [hugeForget]) []) [] r s' := by
  obtain ⟨conn, reply, w, h1, h2⟩ := C84_mount_exact Hostile.note true .linux (fun _ => 0x1000)
    (fun _ => (by decide : 0x1000 % 8 = 0)) ({} : FuseServer) [] (initMessage 4 7 34 [65536, 0])
    nofun (by decide) (fun _ => True) (fun _ _ _ _ _ _ => ⟨Hostile.note_allowed _, trivial⟩)
    (fun _ => Hostile.sends (HostileAll.mixed ++ [hugeForget]) []) [] trivial
  refine ⟨conn, w, h1, fun buf => ?_⟩
  obtain ⟨r, s', _, _, _, h3, -⟩ := h2 buf
  exact ⟨r, s', h3⟩

end TransportExact

end Fuse
