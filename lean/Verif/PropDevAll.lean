import Verif.PropDev
import Verif.PropSharp

/-!
# C80 exactly: devices that are sent POLL without a node ID

What becomes of programs that C80 leaves out: from the first POLL with node ID 0 on, nothing is answered and nothing is done.
-/

namespace Fuse
open Spec

/-! ## What programs hear -/

/-- The requests that do not arrive. -/
def Spec.DevOp.Astray (node : UInt64) : DevOp → Prop
  | .poll _ _ _ => node = 0
  | _ => False

instance decidableAstray (node : UInt64) (op : DevOp) : Decidable (op.Astray node) := by
  unfold DevOp.Astray
  split <;> infer_instance

/-- What is heard if there is no answer. -/
def Spec.Kind.unheard : Kind → Ans
  | .silent => .silent
  | _ => .broken

/-- Using a device that may have been lost, and is when a request goes astray. -/
def Spec.DevUse.live {α S : Type} (act : Caller → DevOp → S → Ans × S) : DevUse α → Option S → α × Option S
  | .done a, s => (a, s)
  | .call who node op k, some s =>
    if op.Astray node then (k op.kind.unheard).live act none else (k (act who op s).1).live act (some (act who op s).2)
  | .call _ _ op k, none => (k op.kind.unheard).live act none

/-- `Valid`, with what programs hear of a device that may be lost. -/
def Spec.DevUse.LiveValid {α S : Type} (act : Caller → DevOp → S → Ans × S) (n : Nat) : DevUse α → Option S → Prop
  | .done _, _ => True
  | .call who node op k, some s =>
    40 + op.request.body.length ≤ min n 0xFFFFFFFF ∧
      if op.Astray node then (k op.kind.unheard).LiveValid act n none
      else op.Ok ∧ op.kind.Allows (act who op s).1 ∧ (k (act who op s).1).LiveValid act n (some (act who op s).2)
  | .call _ _ op k, none => 40 + op.request.body.length ≤ min n 0xFFFFFFFF ∧ (k op.kind.unheard).LiveValid act n none

/-! ## Serving -/

section
variable {S α : Type} (srv : DevServer S)

theorem unheard_eq (k : Kind) (u : UInt64) : k.hear u [] = k.unheard := by
  cases k <;> rfl

theorem dev_lost_handles {ω ε : Type} (sock : Socket (Option S × ω) ε) (m : Bytes) (w : ω) :
    cuseHandle (srv.handlers sock) m (none, w) = (none, w) := by
  unfold cuseHandle
  split
  · rfl
  · rfl

theorem astray_handles {ω ε : Type} (sock : Socket (Option S × ω) ε) {u node : UInt64} (hu : u ≠ 0) {who : Caller} {op : DevOp}
    (hop : op.Astray node) (s : S) (w : ω) :
    cuseHandle (srv.handlers sock) (op.request.message u node who.uid who.gid who.pid 0) (some s, w) = (none, w) := by
  cases op <;> try exact hop.elim
  rename_i handle events flags
  cases hop
  have hf := C50_exact ⟨0, handle, flags, events⟩ u who.uid who.gid who.pid 0 [] hu
  have hl : 40 + (ClientReq.poll ⟨0, handle, flags, events⟩).body.length < 2 ^ 32 := by
    simp only [ClientReq.body, ← enc_fuse_poll_in, Wire.enc_length]; decide
  have hacc := message_acceptable (a := .poll ⟨0, handle, flags, events⟩) (unique := u) (nodeid := 0) (uid := who.uid)
    (gid := who.gid) (pid := who.pid) (padding := 0) (tail := []) hu hl
  have hopc := message_opcode (a := .poll ⟨0, handle, flags, events⟩) (unique := u) (nodeid := 0) (uid := who.uid)
    (gid := who.gid) (pid := who.pid) (padding := 0) (tail := [])
  rw [List.append_nil] at hf hacc hopc
  unfold decodeMessage at hf
  rw [acceptable_new hacc] at hf
  dsimp only at hf
  unfold DevOp.request
  dsimp only
  generalize (ClientReq.poll ⟨0, handle, flags, events⟩).message u 0 who.uid who.gid who.pid 0 = msg at *
  unfold cuseHandle
  rw [hopc]
  show srv.answer sock .poll ⟨msg⟩ s w = _
  unfold DevServer.answer
  rw [hf]
  rcases Filesystem.idAndHeader ⟨msg⟩ with _ | _ <;> rfl

/-- One request that is not answered. -/
theorem unheard_step {u node : UInt64} (hu : u ≠ 0) {who : Caller} {op : DevOp} {s : Option S} {buf : Bytes}
    (hs : ∀ x, s = some x → op.Astray node) (hfit : 40 + op.request.body.length ≤ min buf.length 0xFFFFFFFF) {heard : List Bytes}
    {k k' : List Bytes → Talk α} (hk : k heard = .say (op.request.message u node who.uid who.gid who.pid 0) k') :
    ∃ buf', buf'.length = buf.length ∧
      cuseServeStep (Wired.socket (Option S) α) (srv.handlers (Wired.socket (Option S) α)) (buf, (s, heard, k)) =
        .inr (buf', (none, [], k')) := by
  have hacc := message_acceptable (a := op.request) (unique := u) (nodeid := node) (uid := who.uid) (gid := who.gid)
    (pid := who.pid) (padding := 0) (tail := []) hu (by omega)
  have hml := message_length (a := op.request) (unique := u) (nodeid := node) (uid := who.uid) (gid := who.gid)
    (pid := who.pid) (padding := 0)
  have hh : cuseHandle (srv.handlers (Wired.socket (Option S) α)) (op.request.message u node who.uid who.gid who.pid 0)
      (s, [], k') = (none, [], k') := by
    cases s with
    | none => exact dev_lost_handles srv _ _ _
    | some x => exact astray_handles srv _ hu (hs x rfl) _ _
  rw [List.append_nil] at hacc
  generalize op.request.message u node who.uid who.gid who.pid 0 = msg at *
  have hr := mount_recv (content := s) hk (show msg.length ≤ buf.length by omega)
  have htake : (msg ++ buf.drop msg.length).take msg.length = msg := List.take_left
  have hstep := cuse_serve_more (Wired.socket (Option S) α) (srv.handlers (Wired.socket (Option S) α)) hr
    (by rw [htake]; exact hacc)
  rw [htake, hh] at hstep
  refine ⟨msg ++ buf.drop msg.length, ?_, hstep⟩
  rw [List.length_append, List.length_drop]
  omega

theorem dev_live_serves (h9 : 9 ≤ srv.layout.versionMinor) {ids : Nat → UInt64} (hids : ∀ n, ids n ≠ 0) {β : Type} (g : α → β)
    (use : DevUse α) :
    ∀ (n : Nat) (s : Option S) (buf : Bytes), use.LiveValid srv.act buf.length s →
      ∀ (heard : List Bytes) (k : List Bytes → Talk β),
        k heard = (do let r ← use.talk ids n; return g r) →
        ∃ heard' k', CuseServes (Wired.socket (Option S) β) (srv.handlers (Wired.socket (Option S) β)) buf (s, heard, k)
            (.err (.recv (.connectionClosed ())), ((use.live srv.act s).2, heard', k')) ∧
          k' heard' = .done (g (use.live srv.act s).1) := by
  induction use with
  | done a =>
    intro n s buf _ heard k hk
    have hk : k heard = .done (g a) := hk
    refine ⟨heard, k, .of_step ?_, hk⟩
    have hr : (Wired.socket (Option S) β).recv buf (s, heard, k) =
        ((.error (.connectionClosed ()), buf), (s, heard, k)) := by
      show (match k heard with | .done _ => _ | .say m k => _) = _
      rw [hk]
    simp only [cuseServeStep, cuseRecv, hr]
    rfl
  | call who node op f ih =>
    intro n s buf hv heard k hk
    have hk : k heard = .say (op.request.message (ids n) node who.uid who.gid who.pid 0)
      (fun out => do let r ← DevUse.talk ids (n + 1) (f (op.kind.hear (ids n) out)); return g r) := hk
    have lost (hs : ∀ x, s = some x → op.Astray node) (hfit : 40 + op.request.body.length ≤ min buf.length 0xFFFFFFFF)
        (hv : (f op.kind.unheard).LiveValid srv.act buf.length none) :
        ∃ heard' k', CuseServes (Wired.socket (Option S) β) (srv.handlers (Wired.socket (Option S) β)) buf (s, heard, k)
            (.err (.recv (.connectionClosed ())), (((f op.kind.unheard).live srv.act none).2, heard', k')) ∧
          k' heard' = .done (g ((f op.kind.unheard).live srv.act none).1) := by
      obtain ⟨buf', e1, e2⟩ := unheard_step srv (hids n) hs hfit hk
      obtain ⟨heard', k', e4, e5⟩ := ih op.kind.unheard (n + 1) none buf' (by rw [e1]; exact hv) []
        (fun out => do let r ← DevUse.talk ids (n + 1) (f (op.kind.hear (ids n) out)); return g r) (by rw [unheard_eq])
      exact ⟨heard', k', .of_next e2 e4, e5⟩
    cases s with
    | none => exact lost nofun hv.1 hv.2
    | some x =>
      obtain ⟨h2, hv⟩ := hv
      unfold DevUse.live
      by_cases ha : op.Astray node
      · rw [if_pos ha] at hv ⊢
        exact lost (fun _ _ => ha) h2 hv
      · rw [if_neg ha] at hv ⊢
        obtain ⟨h1, h3, h4⟩ := hv
        obtain ⟨buf', out, e1, e2, e3⟩ := dev_step srv h9 (hids n) h1
          (fun _ _ _ e h => ha (by rw [e]; exact h)) h2 h3 (α := β) hk
        obtain ⟨heard', k', e4, e5⟩ := ih (srv.act who op x).1 (n + 1) (some (srv.act who op x).2) buf' (by rw [e1]; exact h4)
          out (fun out => do let r ← DevUse.talk ids (n + 1) (f (op.kind.hear (ids n) out)); return g r) (by rw [e3])
        exact ⟨heard', k', .of_next e2 e4, e5⟩

end

/-! ## The property -/

/-- **C80** exactly: programs see what they would see using the device directly, up to the first POLL with node ID 0; from then
on nothing is answered, and the device is lost. -/
theorem C80_exact {S α : Type} (srv : DevServer S) (h9 : 9 ≤ srv.layout.versionMinor) (ids : Nat → UInt64)
    (hids : ∀ n, ids n ≠ 0) (use : DevUse α) (s : S) (buf : Bytes) (hv : use.LiveValid srv.act buf.length (some s)) :
    ∃ heard k, CuseServes (Wired.socket (Option S) α) (srv.handlers (Wired.socket (Option S) α)) buf
        (some s, [], fun _ => use.talk ids 0)
        (.err (.recv (.connectionClosed ())), ((use.live srv.act (some s)).2, heard, k)) ∧
      k heard = .done (use.live srv.act (some s)).1 :=
  dev_live_serves srv h9 hids id use 0 (some s) buf hv [] (fun _ => use.talk ids 0) (bind_done _).symm

/-- C80: programs that send no such POLL see no difference. -/
theorem C80_live {S α : Type} (act : Caller → DevOp → S → Ans × S) (n : Nat) (use : DevUse α) (hn : use.PollsNode) :
    ∀ s : S, use.live act (some s) = ((use.run act s).1, some (use.run act s).2) ∧
      (use.LiveValid act n (some s) ↔ use.Valid act n s) := by
  induction use with
  | done a => exact fun s => ⟨rfl, .rfl⟩
  | call who node op f ih =>
    intro s
    have ha : ¬ op.Astray node := by
      intro h
      cases op <;> try exact h.elim
      exact hn.1 _ _ _ rfl h
    obtain ⟨h1, h2⟩ := ih _ (hn.2 (act who op s).1) (act who op s).2
    unfold DevUse.live DevUse.LiveValid
    rw [if_neg ha, if_neg ha]
    refine ⟨h1, ?_⟩
    rw [h2]
    exact ⟨fun ⟨a, b, c, d⟩ => ⟨b, a, c, d⟩, fun ⟨b, a, c, d⟩ => ⟨a, b, c, d⟩⟩

/-! ## Concrete cases -/

namespace DevAll

instance decidableLiveValid {α S : Type} (act : Caller → DevOp → S → Ans × S) (n : Nat) :
    (use : DevUse α) → (s : Option S) → Decidable (use.LiveValid act n s)
  | .done _, _ => .isTrue trivial
  | .call who _ op k, some s =>
    have := decidableLiveValid act n (k op.kind.unheard) none
    have := decidableLiveValid act n (k (act who op s).1) (some (act who op s).2)
    inferInstanceAs (Decidable (_ ∧ ite _ _ _))
  | .call _ _ op k, none =>
    have := decidableLiveValid act n (k op.kind.unheard) none
    inferInstanceAs (Decidable (_ ∧ _))

/-- POLL with a node ID and without, with something before, between and after. -/
def polls : DevUse (List Ans) :=
  Dev.script [(Rpc.alice, 0, .write 1 0 [1, 2, 3] 0 none 2), (Rpc.bob, 1, .poll 77 0xFF 0), (Rpc.bob, 0, .poll 77 0xFF 0),
    (Rpc.alice, 0, .interrupt ⟨6, by decide⟩), (Rpc.alice, 0, .read 1 0 4 none 2), (Rpc.bob, 1, .poll 77 0xFF 0)] []

theorem polls_live : polls.live Dev.queue (some []) =
    ([.written 3, .polled 5, .broken, .silent, .broken, .broken], none) := by decide +kernel

/-- Using the device directly. -/
example : polls.run Dev.queue [] =
    ([.written 3, .polled 5, .polled 5, .silent, .data [1, 2, 3], .polled 4], []) := by decide +kernel

/-- By running the model. -/
example : Dev.outcome ⟨Dev.queue, ⟨31⟩⟩ 15 200 polls [] =
    some (some [.written 3, .polled 5, .broken, .silent, .broken, .broken], none) := by decide +kernel

/-- C80_exact for it. -/
example : ∃ heard k, CuseServes (Wired.socket (Option Bytes) _)
      ((⟨Dev.queue, ⟨31⟩⟩ : DevServer Bytes).handlers (Wired.socket _ _)) (List.replicate 200 0)
      (some [], [], fun _ => polls.talk Dev.ids 0) (.err (.recv (.connectionClosed ())), (none, heard, k)) ∧
    k heard = .done [.written 3, .polled 5, .broken, .silent, .broken, .broken] := by
  have h := C80_exact (⟨Dev.queue, ⟨31⟩⟩ : DevServer Bytes) (by decide) Dev.ids Dev.ids_ne polls [] (List.replicate 200 0)
    (by decide +kernel)
  dsimp only at h
  rwa [polls_live] at h

/-- C80_live for the program of `PropDev`. -/
example : Dev.program.live Dev.queue (some []) = ((Dev.program.run Dev.queue []).1, some []) :=
  (C80_live Dev.queue 200 Dev.program Dev.program_polls []).1.trans (by rw [Dev.program_run])

end DevAll

end Fuse
