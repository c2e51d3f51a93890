import Verif.PropSession

/-!
# C22: what a server is configured with is what the client is told

The limits, for every sequence of configuration calls: the values of the last calls are in the reply, at the
offsets that the protocol prescribes, and what no call was made for is zero.
-/

namespace Fuse
open Spec

variable {σ ε : Type}

namespace Spec

/-- The last of the values that `f` picks. -/
def lastOr {α β : Type} (other : β) (f : α → Option β) (l : List α) : β := ((l.filterMap f).getLast?).getD other

end Spec

theorem lastOr_cons {α β : Type} (other : β) (f : α → Option β) (a : α) (l : List α) :
    lastOr other f (a :: l) = lastOr ((f a).getD other) f l := by
  unfold lastOr
  cases h : f a with
  | none => rw [List.filterMap_cons_none h]; rfl
  | some b =>
    rw [List.filterMap_cons_some h, List.getLast?_cons]
    cases (l.filterMap f).getLast? <;> rfl

/-- The value of a field after a sequence of calls, of which some set it. -/
theorem field_last {α β γ : Type} (run : γ → α → γ) (get : γ → β) (f : α → Option β)
    (h : ∀ c a, get (run c a) = (f a).getD (get c)) (calls : List α) (c : γ) :
    get (calls.foldl run c) = lastOr (get c) f calls := by
  induction calls generalizing c with
  | nil => rfl
  | cons a l ih => rw [List.foldl_cons, ih, h, lastOr_cons]

/-! ## FUSE -/

def FuseServerCall.setsReadahead : FuseServerCall → Option UInt32
  | .maxReadahead x => some x
  | _ => none

def FuseServerCall.setsBackground : FuseServerCall → Option UInt16
  | .maxBackground x => some x
  | _ => none

def FuseServerCall.setsThreshold : FuseServerCall → Option UInt16
  | .congestionThreshold x => some x
  | _ => none

def FuseServerCall.setsWrite : FuseServerCall → Option UInt32
  | .maxWrite x => some x
  | _ => none

def FuseServerCall.setsGranularity : FuseServerCall → Option UInt32
  | .timeGranularity x => some x
  | _ => none

/-- **C22**, limits of a `FuseServer`: the reply that establishes a connection has the values of the last
configuration calls, and no values that there is no call for. -/
theorem C22_limits (calls : List FuseServerCall) (sock : Socket σ ε) (s s' : σ) (conn : FuseConnection)
    (h : (calls.foldl FuseServerCall.run {}).Connects sock s (.ok conn, s')) :
    ∃ id out p s2, Carries out (frame id 0 p) ∧ sock.send out s2 = (.ok (), s') ∧
      (5 ≤ u32At p 4 →
        u32At p 8 = (lastOr 0 FuseServerCall.setsReadahead calls).toNat ∧
        u16At p 16 = (lastOr 0 FuseServerCall.setsBackground calls).toNat ∧
        u16At p 18 = (lastOr 0 FuseServerCall.setsThreshold calls).toNat ∧
        u32At p 20 = (lastOr 0 FuseServerCall.setsWrite calls).toNat) ∧
      (23 ≤ u32At p 4 →
        u32At p 24 = (lastOr 0 FuseServerCall.setsGranularity calls).toNat ∧
        u16At p 28 = 0 ∧ u16At p 30 = 0) ∧
      conn.recvBufLen = max ((lastOr 0 FuseServerCall.setsWrite calls).toNat + 4096) 8192 := by
  obtain ⟨buf, s0, n, b, s1, req, out, h1, h2, h3, h4, h5, h6, h7⟩ := fuse_connect_last h
  have hp := C19_init 0 (acceptReply (FuseServer.initFn (calls.foldl FuseServerCall.run {}) req {} s1).1
    (u32At (b.take n) 44))
  have field : ∀ {β : Type} (get : FuseServer → β) (f : FuseServerCall → Option β),
      (∀ c a, get (FuseServerCall.run c a) = (f a).getD (get c)) →
      get (calls.foldl FuseServerCall.run {}) = lastOr (get {}) f calls :=
    fun get f h => field_last FuseServerCall.run get f h calls {}
  have e1 := field (·.initReply.raw.max_readahead) FuseServerCall.setsReadahead (by
    intro c a
    cases a <;> simp only [FuseServerCall.run, FuseServer.maxWrite] <;> (try split) <;> rfl)
  have e2 := field (·.initReply.raw.max_background) FuseServerCall.setsBackground (by
    intro c a
    cases a <;> simp only [FuseServerCall.run, FuseServer.maxWrite] <;> (try split) <;> rfl)
  have e3 := field (·.initReply.raw.congestion_threshold) FuseServerCall.setsThreshold (by
    intro c a
    cases a <;> simp only [FuseServerCall.run, FuseServer.maxWrite] <;> (try split) <;> rfl)
  have e4 := field (·.initReply.raw.max_write) FuseServerCall.setsWrite (by
    intro c a
    cases a <;> simp only [FuseServerCall.run, FuseServer.maxWrite] <;> (try split) <;> rfl)
  have e5 := field (·.initReply.raw.time_gran) FuseServerCall.setsGranularity (by
    intro c a
    cases a <;> simp only [FuseServerCall.run, FuseServer.maxWrite] <;> (try split) <;> rfl)
  generalize calls.foldl FuseServerCall.run {} = c at *
  refine ⟨_, out, _, _, h5, h6, ?_, ?_, ?_⟩
  · intro hv
    have e : u32At (initBytes (acceptReply (c.initFn req {} s1).1 (u32At (b.take n) 44))) 4 = _ := hp.2.2.1
    obtain ⟨g1, -, g2, g3, g4⟩ := hp.2.2.2.1 (by omega)
    exact ⟨g1.trans (congrArg UInt32.toNat e1), g2.trans (congrArg UInt16.toNat e2),
      g3.trans (congrArg UInt16.toNat e3), g4.trans (congrArg UInt32.toNat e4)⟩
  · intro hv
    have e : u32At (initBytes (acceptReply (c.initFn req {} s1).1 (u32At (b.take n) 44))) 4 = _ := hp.2.2.1
    obtain ⟨g1, g2, g3, -⟩ := hp.2.2.2.2 (by omega)
    exact ⟨g1.trans (congrArg UInt32.toNat e5), g2, g3⟩
  · rw [h7]
    exact congrArg (fun x : UInt32 => max (x.toNat + 4096) 8192) e4

/-- C22: a server that sets the threshold twice, the write limit, and nothing else. -/
example : lastOr 0 FuseServerCall.setsThreshold [.congestionThreshold 10, .maxWrite 65536, .congestionThreshold 12] = 12 ∧
    lastOr 0 FuseServerCall.setsWrite [.congestionThreshold 10, .maxWrite 65536, .congestionThreshold 12] = 65536 ∧
    lastOr 0 FuseServerCall.setsBackground [.congestionThreshold 10, .maxWrite 65536, .congestionThreshold 12] = 0 := by
  decide

/-- C22: such a server, a client of version 7.34, and the reply. -/
example : ∃ (conn : FuseConnection) (p : Bytes),
    ((([.congestionThreshold 10, .maxWrite 65536, .congestionThreshold 12] : List FuseServerCall).foldl
      FuseServerCall.run {}).Connects (scripted (ε := Unit) (.connectionClosed ()))
      ⟨[.ok (initMessage 2 7 34 [65536, 0])], []⟩ (.ok conn, ⟨[], [frame 2 0 p]⟩)) ∧
    u16At p 18 = 12 ∧ u32At p 20 = 65536 ∧ u16At p 16 = 0 ∧ conn.recvBufLen = 69632 := by
  obtain ⟨conn, p, h1, -, h2, -, -⟩ := C20_fuse_script (ε := Unit) (.connectionClosed ())
    (fun r p => ((([.congestionThreshold 10, .maxWrite 65536, .congestionThreshold 12] : List FuseServerCall).foldl
      FuseServerCall.run {}).initFn r p ()).1) [] (initMessage 2 7 34 [65536, 0]) nofun (by decide) []
  obtain ⟨id, out, q, s2, h3, h4, h5, -, h6⟩ := C22_limits _ _ _ _ conn h1
  rw [scripted_send _ h3] at h4
  have e : s2.outgoing ++ [frame id 0 q] = [frame 2 0 p] := congrArg (fun x => x.2.outgoing) h4
  have e : frame id 0 q = frame 2 0 p := by
    have := congrArg List.getLast? e
    rw [List.getLast?_concat] at this
    injection this
  have e : q = p := by
    have := congrArg (List.drop 16) e
    exact this
  subst e
  obtain ⟨-, h7, h8, h9⟩ := h5 (by rw [h2]; decide)
  exact ⟨conn, q, h1, h8, h9, h7, h6.trans (by decide +kernel)⟩

/-! ## CUSE -/

/-- The calls that configure a `CuseServer`. -/
inductive CuseServerCall
  | maxRead (x : UInt32)
  | maxWrite (x : UInt32)
  | updateFlags (f : UInt32 → UInt32)
  | enableUnrestrictedIoctl

/-- Configuring a server. -/
def CuseServerCall.run (c : CuseServer) : CuseServerCall → CuseServer
  | .maxRead x => c.setMaxRead x
  | .maxWrite x => c.setMaxWrite x
  | .updateFlags f => c.updateFlags f
  | .enableUnrestrictedIoctl => c.enableUnrestrictedIoctl

/-- The features on offer after a call; unrestricted ioctls are bit 0. -/
def CuseServerCall.offer (flags : UInt32) : CuseServerCall → UInt32
  | .updateFlags f => f flags
  | .enableUnrestrictedIoctl => flags ||| 1
  | _ => flags

def CuseServerCall.setsRead : CuseServerCall → Option UInt32
  | .maxRead x => some x
  | _ => none

def CuseServerCall.setsWrite : CuseServerCall → Option UInt32
  | .maxWrite x => some x
  | _ => none

/-- **C22**, configuration of a `CuseServer`: flags are granted if requested and offered, limits are those of the last
calls, and the device is the one the server was made for. -/
theorem C22_cuse_config (name : CuseDeviceName) (num : CuseDeviceNumber) (calls : List CuseServerCall)
    (sock : Socket σ ε) (s s' : σ) (conn : CuseConnection)
    (h : (calls.foldl CuseServerCall.run (.new name num)).Connects sock s (.ok conn, s')) :
    ∃ buf s0 n b s1, sock.recv buf s0 = ((.ok n, b), s1) ∧ IsCuseInit (b.take n) ∧
      ∃ id out p s2, Carries out (frame id 0 p) ∧ sock.send out s2 = (.ok (), s') ∧
        (∀ i < 32, (u32At p 12).testBit i =
          ((u32At (b.take n) 52).testBit i && (calls.foldl CuseServerCall.offer 0).toNat.testBit i)) ∧
        u32At p 16 = (lastOr 0 CuseServerCall.setsRead calls).toNat ∧
        u32At p 20 = (lastOr 0 CuseServerCall.setsWrite calls).toNat ∧
        u32At p 24 = num.major.toNat ∧ u32At p 28 = num.minor.toNat ∧
        p.drop 72 = devname ++ name.bytes ++ [0] := by
  have hr := field_last CuseServerCall.run (·.maxRead) CuseServerCall.setsRead (by intro c a; cases a <;> rfl) calls
    (.new name num)
  have hw := field_last CuseServerCall.run (·.maxWrite) CuseServerCall.setsWrite (by intro c a; cases a <;> rfl) calls
    (.new name num)
  have key : ∀ (calls : List CuseServerCall) (c : CuseServer),
      (calls.foldl CuseServerCall.run c).flags = calls.foldl CuseServerCall.offer c.flags ∧
      (calls.foldl CuseServerCall.run c).deviceName = c.deviceName ∧
      (calls.foldl CuseServerCall.run c).deviceNumber = c.deviceNumber := by
    intro calls
    induction calls with
    | nil => intro c; exact ⟨rfl, rfl, rfl⟩
    | cons a calls ih =>
      intro c
      obtain ⟨h1, h2, h3⟩ := ih (CuseServerCall.run c a)
      rw [List.foldl_cons, List.foldl_cons, h1, h2, h3]
      cases a <;> exact ⟨rfl, rfl, rfl⟩
  obtain ⟨hf, hn, hm⟩ := key calls (.new name num)
  obtain ⟨buf, s0, n, b, s1, h1, h2, id, out, p, s2, h3, h4, h5, h6, h7, h8, h9, h10⟩ := C22_cuse _ sock s s' conn h
  refine ⟨buf, s0, n, b, s1, h1, h2, id, out, p, s2, h3, h4, ?_, ?_, ?_, ?_, ?_, ?_⟩
  · intro i hi; rw [h5 i hi, hf]; rfl
  · rw [h6]; exact congrArg UInt32.toNat hr
  · rw [h7]; exact congrArg UInt32.toNat hw
  · rw [h8, hm]; rfl
  · rw [h9, hm]; rfl
  · rw [h10, hn]; rfl

/-- C22: unrestricted ioctls on offer, and two limits. -/
example : ([.maxRead 1, .enableUnrestrictedIoctl, .maxRead 2] : List CuseServerCall).foldl CuseServerCall.offer 0 = 1 ∧
    lastOr 0 CuseServerCall.setsRead [.maxRead 1, .enableUnrestrictedIoctl, .maxRead 2] = 2 := by decide

end Fuse
