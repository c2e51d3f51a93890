import Verif.SessionLemmas

/-!
# C20–C23, C52: connecting

Statements are about the bytes of the `INIT` messages received (`IsFuseInit`, `u32At`), the bytes of
the replies sent, and the connection that results.
-/

namespace Fuse
open Spec

variable {σ ε : Type}

/-! ## A scripted client -/

/-- A client that sends the given messages (or has the server's receive fail) and records the
replies. -/
structure Script (ε : Type) where
  incoming : List (Except (RecvError ε) Bytes)
  outgoing : List Bytes := []

/-- The connection to a scripted client; `closed` is reported once the script is over. -/
def scripted (closed : RecvError ε) : Socket (Script ε) ε where
  recv buf s :=
    match s.incoming with
    | [] => ((.error closed, buf), s)
    | .error e :: rest => ((.error e, buf), ⟨rest, s.outgoing⟩)
    | .ok m :: rest => ((.ok (min m.length buf.length), m.take buf.length ++ buf.drop m.length),
        ⟨rest, s.outgoing⟩)
  recv_length buf s := by
    cases s.incoming with
    | nil => rfl
    | cons m rest =>
      cases m with
      | error e => rfl
      | ok m =>
        show (m.take buf.length ++ buf.drop m.length).length = buf.length
        rw [List.length_append, List.length_take, List.length_drop]; omega
  send out s :=
    match out.chunks with
    | .ok cs => (.ok (), ⟨s.incoming, s.outgoing ++ [cs.flatten]⟩)
    | .error _ => (.ok (), s)

theorem scripted_recv (closed : RecvError ε) (buf m : Bytes) (rest) (o : List Bytes)
    (h : m.length ≤ buf.length) :
    ∃ b, (scripted closed).recv buf ⟨.ok m :: rest, o⟩ = ((.ok m.length, b), ⟨rest, o⟩) ∧
      b.take m.length = m ∧ b.length = buf.length := by
  refine ⟨m.take buf.length ++ buf.drop m.length, ?_, ?_, ?_⟩
  · show ((Except.ok (min m.length buf.length), _), _) = _
    rw [Nat.min_eq_left h]
  · rw [List.take_of_length_le h, List.take_left' rfl]
  · rw [List.length_append, List.length_take, List.length_drop]; omega

theorem scripted_send (closed : RecvError ε) {out : SendBuf} {msg : Bytes} (h : Carries out msg)
    (s : Script ε) : (scripted closed).send out s = (.ok (), ⟨s.incoming, s.outgoing ++ [msg]⟩) := by
  obtain ⟨cs, h1, _, h2, _⟩ := h
  show (match out.chunks with | .ok cs => _ | .error _ => _) = _
  rw [h1]
  show (Except.ok (), (⟨s.incoming, s.outgoing ++ [cs.flatten]⟩ : Script ε)) = _
  rw [h2]

/-! ## C20: version negotiation -/

/-- The request ID of a message. -/
def idOf (msg : Bytes) : UInt64 := UInt64.ofNat (u64At msg 8)

/-- **C20**, for every socket and closure: a FUSE connection is established only in answer to an
`INIT` of major version 7; the closure is consulted exactly then; and the version announced in the
reply, which is the last thing sent, is 7 and the smaller of the client's minor version and 36, as is
the minor version of the connection. -/
theorem C20_fuse (sock : Socket σ ε) (initFn : FuseInitFn σ) (s s' : σ) (conn : FuseConnection)
    (h : FuseConnects sock initFn s (.ok conn, s')) :
    ∃ buf s0 n b s1, sock.recv buf s0 = ((.ok n, b), s1) ∧
      let msg := b.take n
      IsFuseInit msg ∧ u32At msg 40 = 7 ∧
      ∃ req out p, FuseInitRequest.Reports req msg ∧ Carries out (frame (idOf msg) 0 p) ∧
        sock.send out (initFn req {} s1).2 = (.ok (), s') ∧
        u32At p 0 = 7 ∧ u32At p 4 = min (u32At msg 44) 36 ∧
        conn.layout.versionMinor.toNat = min (u32At msg 44) 36 := by
  obtain ⟨buf, s0, n, b, s1, req, out, h1, h2, h3, h4, h5, h6, h7⟩ := fuse_connect_last h
  have hmin : (UInt32.ofNat (min (u32At (b.take n) 44) 36)).toNat = min (u32At (b.take n) 44) 36 := by
    rw [UInt32.toNat_ofNat']; omega
  refine ⟨buf, s0, n, b, s1, h1, h2, h3, req, out, _, h4, h5, h6, ?_, ?_, ?_⟩
  · exact (C19_init 0 _).2.1
  · exact (C19_init 0 _).2.2.1.trans hmin
  · rw [h7]
    show (UInt32.ofNat (min (u32At (b.take n) 44) 36)).toUInt16.toNat = _
    rw [UInt32.toNat_toUInt16, hmin]; omega

/-- **C20** for CUSE. -/
theorem C20_cuse (sock : Socket σ ε) (name : CuseDeviceName) (num : CuseDeviceNumber)
    (initFn : CuseInitFn σ) (s s' : σ) (conn : CuseConnection)
    (h : CuseConnects sock name num initFn s (.ok conn, s')) :
    ∃ buf s0 n b s1, sock.recv buf s0 = ((.ok n, b), s1) ∧
      let msg := b.take n
      IsCuseInit msg ∧ u32At msg 40 = 7 ∧
      ∃ (req : CuseInitRequest) (out : SendBuf) (p : Bytes) (blank : CuseInitResponse),
        Carries out (frame (idOf msg) 0 p) ∧
        sock.send out (initFn req blank s1).2 = (.ok (), s') ∧
        u32At p 0 = 7 ∧ u32At p 4 = min (u32At msg 44) 36 ∧
        conn.layout.versionMinor.toNat = min (u32At msg 44) 36 := by
  obtain ⟨buf, s0, n, b, s1, req, out, h1, h2, h3, _, _, h5, h6, h7⟩ := cuse_connect_last h
  have hmin : (UInt32.ofNat (min (u32At (b.take n) 44) 36)).toNat = min (u32At (b.take n) 44) 36 := by
    rw [UInt32.toNat_ofNat']; omega
  refine ⟨buf, s0, n, b, s1, h1, h2, h3, req, out, _, _, h5, h6, ?_, ?_, ?_⟩
  · simp only [CuseReply.payload, layout_cuse_init_out, cuseAcceptReply]
    read_at; rfl
  · simp only [CuseReply.payload, layout_cuse_init_out, cuseAcceptReply]
    read_at; exact hmin
  · rw [h7]
    show (UInt16.ofNat (min (u32At (b.take n) 44) 36)).toNat = _
    rw [UInt16.toNat_ofNat']; omega

theorem fuse_script (closed : RecvError ε) (f : FuseInitRequest → FuseInitResponse → FuseInitResponse)
    (bad : List Bytes) (hbad : ∀ m ∈ bad, m.length ≤ 8192 ∧ IsFuseInit m ∧ u32At m 40 ≠ 7)
    (rest : List (Except (RecvError ε) Bytes)) (outs : List Bytes) (buf : Bytes)
    (hbuf : buf.length = 8192) :
    ∃ buf', buf'.length = 8192 ∧
      iterate (fuseConnectStep (scripted closed) (fun r p s => (f r p, s))) bad.length
        (buf, ⟨bad.map .ok ++ rest, outs⟩) =
      .inr (buf', ⟨rest, outs ++ bad.map fun m => frame (idOf m) 0 rejectionBytes⟩) := by
  induction bad generalizing buf outs with
  | nil => exact ⟨buf, hbuf, by simp only [List.map_nil, List.append_nil]; rfl⟩
  | cons m bad ih =>
    obtain ⟨hl, hi, hm⟩ := hbad m (List.mem_cons_self ..)
    obtain ⟨b, hr, ht, hb⟩ := scripted_recv closed buf m (bad.map .ok ++ rest) outs (by omega)
    obtain ⟨out, ho, hs⟩ := fuse_step_reject (initFn := fun r p s => (f r p, s)) hr
      (by rw [ht]; exact hi) (by rw [ht]; exact hm)
    rw [ht] at ho
    rw [scripted_send closed ho] at hs
    obtain ⟨buf', h1, h2⟩ := ih (fun x hx => hbad x (List.mem_cons_of_mem _ hx))
      (outs ++ [frame (idOf m) 0 rejectionBytes]) b (by omega)
    refine ⟨buf', h1, ?_⟩
    simp only [List.length_cons, iterate, List.map_cons, List.cons_append]
    rw [hs]
    simp only
    rw [show UInt64.ofNat (u64At m 8) = idOf m from rfl, h2]
    simp only [List.append_assoc, List.cons_append, List.nil_append]

/-- **C20**, every sequence of `INIT` messages: each one of a major version other than 7 is answered
with version 7.36 and nothing else, and the first one of major version 7 establishes the connection
with the smaller minor version.  `f` is the caller's closure; it sees the accepted request only. -/
theorem C20_fuse_script (closed : RecvError ε)
    (f : FuseInitRequest → FuseInitResponse → FuseInitResponse) (bad : List Bytes) (good : Bytes)
    (hbad : ∀ m ∈ bad, m.length ≤ 8192 ∧ IsFuseInit m ∧ u32At m 40 ≠ 7)
    (hgood : good.length ≤ 8192 ∧ IsFuseInit good ∧ u32At good 40 = 7)
    (rest : List (Except (RecvError ε) Bytes)) :
    ∃ (conn : FuseConnection) (p : Bytes),
      FuseConnects (scripted closed) (fun r p s => (f r p, s)) ⟨bad.map .ok ++ .ok good :: rest, []⟩
        (.ok conn, ⟨rest, bad.map (fun m => frame (idOf m) 0 (le32 7 ++ le32 36 ++ List.replicate 56 0)) ++
          [frame (idOf good) 0 p]⟩) ∧
      u32At p 0 = 7 ∧ u32At p 4 = min (u32At good 44) 36 ∧
      conn.layout.versionMinor.toNat = min (u32At good 44) 36 ∧
      ∃ req, FuseInitRequest.Reports req good ∧
        p = initBytes (acceptReply (f req {}) (u32At good 44)) ∧
        conn.layout = .new2 (acceptReply (f req {}) (u32At good 44)) := by
  obtain ⟨buf, hb, hi⟩ := fuse_script closed f bad hbad (.ok good :: rest) [] minReadBuffer
    (List.length_replicate ..)
  obtain ⟨b, hr, ht, _⟩ := scripted_recv closed buf good rest
    ([] ++ bad.map fun m => frame (idOf m) 0 rejectionBytes) (by omega)
  obtain ⟨req, out, hrep, ho, hs⟩ := fuse_step_accept (initFn := fun r p s => (f r p, s)) hr
    (by rw [ht]; exact hgood.2.1) (by rw [ht]; exact hgood.2.2)
  rw [ht] at hrep ho hs
  rw [scripted_send closed ho] at hs
  simp only at hs
  have hmin : (UInt32.ofNat (min (u32At good 44) 36)).toNat = min (u32At good 44) 36 := by
    rw [UInt32.toNat_ofNat']; omega
  refine ⟨⟨.new2 (acceptReply (f req {}) (u32At good 44)),
    max ((f req {}).raw.max_write.toNat + 4096) 8192⟩, _, ⟨bad.length + 1, ?_⟩, ?_, ?_, ?_, req, hrep,
    rfl, ?_⟩
  · rw [iterate_add _ 1 _ _ hi]
    simp only [iterate]
    rw [hs]
    simp only [List.nil_append]; rfl
  · exact (C19_init 0 _).2.1
  · exact (C19_init 0 _).2.2.1.trans hmin
  · show (UInt32.ofNat (min (u32At good 44) 36)).toUInt16.toNat = _
    rw [UInt32.toNat_toUInt16, hmin]; omega
  · rfl

/-- **C20**: anything other than an `INIT` message ends the attempt with a request error, and a failing
receive with that failure; nothing is sent in either case. -/
theorem C20_fuse_fails (sock : Socket σ ε) (initFn : FuseInitFn σ) (buf b : Bytes) (s s1 : σ)
    (r : Except (RecvError ε) Nat) (hr : sock.recv buf s = ((r, b), s1)) :
    (∀ e, r = .error e → fuseConnectStep sock initFn (buf, s) = .inl (.err (.recv e), s1)) ∧
    (∀ n, r = .ok n → ¬ IsFuseInit (b.take n) →
      ∃ e, fuseConnectStep sock initFn (buf, s) = .inl (.err (.request e), s1)) := by
  constructor
  · intro e he; subst he; exact fuse_step_closed hr
  · intro n hn hi; subst hn; exact fuse_step_not_init hr hi

/-- A client's `INIT` message of version `major.minor`, with `n` further words. -/
def initMessage (unique : UInt64) (major minor : UInt32) (words : List UInt32) : Bytes :=
  le32 (UInt32.ofNat (48 + 4 * words.length)) ++ le32 26 ++ le64 unique ++ le64 0 ++ le64 0 ++ le64 0 ++
    le32 major ++ le32 minor ++ (words.map le32).flatten

/-- C20: a client proposing 8.0, then 7.19. -/
example : ∃ conn p,
    FuseConnects (scripted (ε := Unit) (.connectionClosed ())) (fun _ p s => (p, s))
      ⟨[.ok (initMessage 2 8 0 []), .ok (initMessage 4 7 19 [65536, 0x3b])], []⟩
      (.ok conn, ⟨[], [frame 2 0 (le32 7 ++ le32 36 ++ List.replicate 56 0), frame 4 0 p]⟩) ∧
    u32At p 0 = 7 ∧ u32At p 4 = 19 ∧ conn.layout.versionMinor.toNat = 19 := by
  obtain ⟨conn, p, h, h1, h2, h3, _⟩ := C20_fuse_script (ε := Unit) (.connectionClosed ())
    (fun _ p => p) [initMessage 2 8 0 []] (initMessage 4 7 19 [65536, 0x3b])
    (by
      intro m hm
      rw [List.mem_singleton.mp hm]
      decide)
    (by decide) []
  exact ⟨conn, p, h, h1, h2, h3⟩

/-- A client's `CUSE_INIT` message of version `major.minor`. -/
def cuseInitMessage (unique : UInt64) (major minor : UInt32) : Bytes :=
  le32 56 ++ le32 4096 ++ le64 unique ++ le64 0 ++ le64 0 ++ le64 0 ++ le32 major ++ le32 minor ++ le32 0 ++ le32 0

theorem cuse_script (closed : RecvError ε) (name : CuseDeviceName) (num : CuseDeviceNumber) (f : CuseInitFn _)
    (bad : List Bytes) (hbad : ∀ m ∈ bad, m.length ≤ 8192 ∧ IsCuseInit m ∧ u32At m 40 ≠ 7)
    (rest : List (Except (RecvError ε) Bytes)) (outs : List Bytes) (buf : Bytes)
    (hbuf : buf.length = 8192) :
    ∃ buf', buf'.length = 8192 ∧
      iterate (cuseConnectStep (scripted closed) name num f) bad.length
        (buf, ⟨bad.map .ok ++ rest, outs⟩) =
      .inr (buf', ⟨rest, outs ++ bad.map fun m => frame (idOf m) 0 cuseRejectionBytes⟩) := by
  induction bad generalizing buf outs with
  | nil => exact ⟨buf, hbuf, by simp only [List.map_nil, List.append_nil]; rfl⟩
  | cons m bad ih =>
    obtain ⟨hl, hi, hm⟩ := hbad m (List.mem_cons_self ..)
    obtain ⟨b, hr, ht, hb⟩ := scripted_recv closed buf m (bad.map .ok ++ rest) outs (by omega)
    obtain ⟨out, ho, hs⟩ := cuse_step_reject (name := name) (num := num) (initFn := f) hr
      (by rw [ht]; exact hi) (by rw [ht]; exact hm)
    rw [ht] at ho
    rw [scripted_send closed ho] at hs
    obtain ⟨buf', h1, h2⟩ := ih (fun x hx => hbad x (List.mem_cons_of_mem _ hx))
      (outs ++ [frame (idOf m) 0 cuseRejectionBytes]) b (by omega)
    refine ⟨buf', h1, ?_⟩
    simp only [List.length_cons, iterate, List.map_cons, List.cons_append]
    rw [hs]
    simp only
    rw [show UInt64.ofNat (u64At m 8) = idOf m from rfl, h2]
    simp only [List.append_assoc, List.cons_append, List.nil_append]

/-- **C20** for CUSE, every sequence of `INIT` messages, for a server made with the builder (whose reply is the
record of `C22_cuse` followed by the device name, and must fit the length field). -/
theorem C20_cuse_script (closed : RecvError ε) (c : CuseServer) (hname : c.deviceName.bytes.length + 97 < 2 ^ 32)
    (bad : List Bytes) (good : Bytes)
    (hbad : ∀ m ∈ bad, m.length ≤ 8192 ∧ IsCuseInit m ∧ u32At m 40 ≠ 7)
    (hgood : good.length ≤ 8192 ∧ IsCuseInit good ∧ u32At good 40 = 7)
    (rest : List (Except (RecvError ε) Bytes)) :
    ∃ (conn : CuseConnection) (p : Bytes),
      c.Connects (scripted closed) ⟨bad.map .ok ++ .ok good :: rest, []⟩
        (.ok conn, ⟨rest, bad.map (fun m => frame (idOf m) 0 (le32 7 ++ le32 36 ++ List.replicate 64 0)) ++
          [frame (idOf good) 0 p]⟩) ∧
      u32At p 0 = 7 ∧ u32At p 4 = min (u32At good 44) 36 ∧
      conn.layout.versionMinor.toNat = min (u32At good 44) 36 ∧
      conn.recvBufLen = max (c.maxWrite.toNat + 4096) 8192 := by
  obtain ⟨buf, hb, hi⟩ := cuse_script closed c.deviceName c.deviceNumber c.initFn bad hbad (.ok good :: rest) []
    minReadBuffer (List.length_replicate ..)
  obtain ⟨b, hr, ht, _⟩ := scripted_recv closed buf good rest
    ([] ++ bad.map fun m => frame (idOf m) 0 cuseRejectionBytes) (by omega)
  obtain ⟨req, res, hv, hfl, hso, hs⟩ := cuse_step_accept (name := c.deviceName) (num := c.deviceNumber)
    (initFn := c.initFn) hr (by rw [ht]; exact hgood.2.1) (by rw [ht]; exact hgood.2.2)
  rw [ht] at hso hs
  have hmin : (UInt32.ofNat (min (u32At good 44) 36)).toNat = min (u32At good 44) 36 := by
    rw [UInt32.toNat_ofNat']; omega
  have hlen : ∀ reply : CuseInitResponse, reply.deviceName = some c.deviceName →
      (CuseReply.init reply).payload.length = 72 + 8 + c.deviceName.bytes.length + 1 := by
    intro reply h
    have hs : reply.raw.spare.bytes.length = 40 := Reserved.len _
    simp [CuseReply.payload, h, layout_cuse_init_out, hs, devname]
    omega
  obtain ⟨out, ho, hres⟩ := hso.1 (by rw [hlen _ rfl]; omega)
  rw [scripted_send closed ho] at hres
  rw [hres] at hs
  refine ⟨⟨⟨UInt16.ofNat (min (u32At good 44) 36)⟩, max (c.maxWrite.toNat + 4096) 8192⟩,
    (CuseReply.init (cuseAcceptReply (c.initFn req (cuseBlank c.deviceName c.deviceNumber) ()).1
      (u32At good 44))).payload, ⟨bad.length + 1, ?_⟩, ?_, ?_, ?_, rfl⟩
  · rw [iterate_add _ 1 _ _ hi]
    simp only [iterate]
    rw [hs]
    simp only [List.nil_append]; rfl
  · simp only [CuseReply.payload, layout_cuse_init_out, cuseAcceptReply]
    read_at; rfl
  · simp only [CuseReply.payload, layout_cuse_init_out, cuseAcceptReply]
    read_at; exact hmin
  · show (UInt16.ofNat (min (u32At good 44) 36)).toNat = _
    rw [UInt16.toNat_ofNat']; omega

/-- C20: a CUSE client proposing 8.0, then 7.40. -/
example : ∃ conn p,
    CuseServer.Connects ⟨⟨[0x78]⟩, ⟨1, 2⟩, 0, 0, 65536⟩ (scripted (ε := Unit) (.connectionClosed ()))
      ⟨[.ok (cuseInitMessage 2 8 0), .ok (cuseInitMessage 4 7 40)], []⟩
      (.ok conn, ⟨[], [frame 2 0 (le32 7 ++ le32 36 ++ List.replicate 64 0), frame 4 0 p]⟩) ∧
    u32At p 0 = 7 ∧ u32At p 4 = 36 ∧ conn.layout.versionMinor.toNat = 36 ∧ conn.recvBufLen = 69632 := by
  obtain ⟨conn, p, h, h1, h2, h3, h4⟩ := C20_cuse_script (ε := Unit) (.connectionClosed ())
    ⟨⟨[0x78]⟩, ⟨1, 2⟩, 0, 0, 65536⟩ (by show 1 + 97 < 2 ^ 32; omega) [cuseInitMessage 2 8 0] (cuseInitMessage 4 7 40)
    (by
      intro m hm
      rw [List.mem_singleton.mp hm]
      decide)
    (by decide) []
  exact ⟨conn, p, h, h1, h2, h3, h4.trans (by decide +kernel)⟩

/-! ## C21: the parties agree on the session layout -/

/-- What a client concludes from the payload of an accepting `INIT` reply: the minor version, and
whether `SETXATTR` requests have the extended form.  Before 7.6 clients do not look at the flags. -/
def clientMinor (p : Bytes) : Nat := u32At p 4
/-- See `clientMinor`. -/
def clientSetxattrExt (p : Bytes) : Bool := 6 ≤ u32At p 4 && (u32At p 12).testBit 29

theorem and_bit29 (x : UInt32) : (x &&& FUSE_SETXATTR_EXT ≠ 0) ↔ x.toNat.testBit 29 = true := by
  have h : x &&& FUSE_SETXATTR_EXT = 0 ↔ x.toNat.testBit 29 = false := by
    rw [← UInt32.toNat_inj, UInt32.toNat_and]
    show x.toNat &&& 2 ^ 29 = 0 ↔ _
    constructor
    · intro h
      have := congrArg (Nat.testBit · 29) h
      simp only [Nat.testBit_and, Nat.testBit_two_pow_self, Bool.and_true, Nat.zero_testBit] at this
      exact this
    · intro h
      apply Nat.eq_of_testBit_eq
      intro i
      rw [Nat.testBit_and, Nat.testBit_two_pow, Nat.zero_testBit]
      by_cases hi : 29 = i
      · subst hi; rw [h]; rfl
      · simp [hi]
  rw [ne_eq, h]
  cases x.toNat.testBit 29 <;> simp

theorem new2_setxattrExt (x : FuseInitOut) :
    (FuseLayout.new2 x).haveSetxattrExt = x.flags.toNat.testBit 29 := by
  unfold FuseLayout.new2 FuseLayout.haveSetxattrExt
  by_cases h : x.flags &&& FUSE_SETXATTR_EXT ≠ 0
  · rw [if_pos h, (and_bit29 _).mp h]; show ((0 ||| FEATURE_SETXATTR_EXT) &&& FEATURE_SETXATTR_EXT != 0) = true; decide
  · rw [if_neg h]
    have : x.flags.toNat.testBit 29 = false := by
      cases hb : x.flags.toNat.testBit 29
      · rfl
      · exact absurd ((and_bit29 _).mpr hb) h
    rw [this]; show ((0 : UInt16) &&& FEATURE_SETXATTR_EXT != 0) = false; decide

/-- **C21** (partial: closures that, for clients older than 7.6, leave the `SETXATTR_EXT` flag alone):
the layout the server goes on to use is the one the client concludes from the reply. -/
theorem C21_connect_partial (sock : Socket σ ε) (initFn : FuseInitFn σ) (s s' : σ)
    (conn : FuseConnection) (h : FuseConnects sock initFn s (.ok conn, s'))
    (hfn : ∀ req s, req.version.minor.toNat < 6 →
      (initFn req {} s).1.raw.flags.toNat.testBit 29 = false) :
    ∃ id out p s2, Carries out (frame id 0 p) ∧ sock.send out s2 = (.ok (), s') ∧
      conn.layout.versionMinor.toNat = clientMinor p ∧
      conn.layout.haveSetxattrExt = clientSetxattrExt p := by
  obtain ⟨buf, s0, n, b, s1, req, out, h1, h2, h3, h4, h5, h6, h7⟩ := fuse_connect_last h
  have hmin : (UInt32.ofNat (min (u32At (b.take n) 44) 36)).toNat = min (u32At (b.take n) 44) 36 := by
    rw [UInt32.toNat_ofNat']; omega
  have hp := C19_init 0 (acceptReply (initFn req {} s1).1 (u32At (b.take n) 44))
  refine ⟨_, out, _, _, h5, h6, ?_, ?_⟩
  · rw [h7]
    refine Eq.trans ?_ hp.2.2.1.symm
    show (UInt32.ofNat (min (u32At (b.take n) 44) 36)).toUInt16.toNat = (UInt32.ofNat _).toNat
    rw [UInt32.toNat_toUInt16, hmin]; omega
  · rw [h7]
    show (FuseLayout.new2 _).haveSetxattrExt = _
    rw [new2_setxattrExt]
    have e1 : u32At (initBytes (acceptReply (initFn req {} s1).1 (u32At (b.take n) 44))) 4 =
        min (u32At (b.take n) 44) 36 := hp.2.2.1.trans hmin
    unfold clientSetxattrExt
    rw [e1]
    by_cases h6' : 6 ≤ u32At (b.take n) 44
    · have : u32At (initBytes (acceptReply (initFn req {} s1).1 (u32At (b.take n) 44))) 12 = _ :=
        (hp.2.2.2.1 (by show ¬ (UInt32.ofNat _).toNat < 5; omega)).2.1
      rw [this, decide_eq_true (by omega)]
      rfl
    · rw [decide_eq_false (by omega), Bool.false_and]
      exact hfn req s1 (by rw [h4.2.1]; omega)

/-- C21: exactly when the parties agree.  The minor version is always the same; the form of `SETXATTR` is the same
unless the client is older than 7.6 and the closure turned the extended form on. -/
theorem C21_exact (sock : Socket σ ε) (initFn : FuseInitFn σ) (s s' : σ)
    (conn : FuseConnection) (h : FuseConnects sock initFn s (.ok conn, s')) :
    ∃ id out p s2 req s1, Carries out (frame id 0 p) ∧ sock.send out s2 = (.ok (), s') ∧
      (initFn req {} s1).2 = s2 ∧
      conn.layout.versionMinor.toNat = clientMinor p ∧
      conn.layout.versionMinor.toNat = min req.version.minor.toNat 36 ∧
      (conn.layout.haveSetxattrExt = clientSetxattrExt p ↔
        ¬ (req.version.minor.toNat < 6 ∧ (initFn req {} s1).1.raw.flags.toNat.testBit 29 = true)) := by
  obtain ⟨buf, s0, n, b, s1, req, out, h1, h2, h3, h4, h5, h6, h7⟩ := fuse_connect_last h
  have hmin : (UInt32.ofNat (min (u32At (b.take n) 44) 36)).toNat = min (u32At (b.take n) 44) 36 := by
    rw [UInt32.toNat_ofNat']; omega
  have hp := C19_init 0 (acceptReply (initFn req {} s1).1 (u32At (b.take n) 44))
  have hv : conn.layout.versionMinor.toNat = min (u32At (b.take n) 44) 36 := by
    rw [h7]
    show (UInt32.ofNat (min (u32At (b.take n) 44) 36)).toUInt16.toNat = _
    rw [UInt32.toNat_toUInt16, hmin]; omega
  have e1 : u32At (initBytes (acceptReply (initFn req {} s1).1 (u32At (b.take n) 44))) 4 =
      min (u32At (b.take n) 44) 36 := hp.2.2.1.trans hmin
  refine ⟨_, out, _, _, req, s1, h5, h6, rfl, hv.trans e1.symm, hv.trans (by rw [h4.2.1]), ?_⟩
  rw [h7]
  show ((FuseLayout.new2 _).haveSetxattrExt = _) ↔ _
  rw [new2_setxattrExt, h4.2.1]
  unfold clientSetxattrExt
  rw [e1]
  by_cases h6' : 6 ≤ u32At (b.take n) 44
  · have : u32At (initBytes (acceptReply (initFn req {} s1).1 (u32At (b.take n) 44))) 12 = _ :=
      (hp.2.2.2.1 (by show ¬ (UInt32.ofNat _).toNat < 5; omega)).2.1
    rw [this, decide_eq_true (by omega)]
    exact ⟨fun _ hc => absurd hc.1 (by omega), fun _ => rfl⟩
  · rw [decide_eq_false (by omega), Bool.false_and]
    show ((initFn req {} s1).1.raw.flags.toNat.testBit 29 = false) ↔ _
    cases (initFn req {} s1).1.raw.flags.toNat.testBit 29 <;> simp <;> omega

theorem fuseInitFlags_old {msg : Bytes} (h : u32At msg 44 < 6) : fuseInitFlags msg = 0 := by
  rw [fuseInitFlags, if_pos (Or.inr h)]

/-- The low half of the flags of a reply set by `FuseServer`. -/
theorem server_flags (c : FuseServer) (req : FuseInitRequest) (s : σ) :
    (c.initFn req {} s).1.raw.flags.toNat = (req.flags.toNat &&& c.initReply.flags.toNat) % 2 ^ 32 := by
  show ((req.flags &&& c.initReply.flags &&& 0xFFFFFFFF).toUInt32).toNat = _
  rw [UInt64.toNat_toUInt32, UInt64.toNat_and, UInt64.toNat_and]
  show (_ &&& (2 ^ 32 - 1)) % 2 ^ 32 = _
  rw [Nat.and_two_pow_sub_one_eq_mod, Nat.mod_mod]

theorem server_flags2 (c : FuseServer) (req : FuseInitRequest) (s : σ) :
    (c.initFn req {} s).1.raw.flags2.toNat = (req.flags.toNat &&& c.initReply.flags.toNat) / 2 ^ 32 := by
  show (((req.flags &&& c.initReply.flags) >>> 32).toUInt32).toNat = _
  rw [UInt64.toNat_toUInt32, UInt64.toNat_shiftRight, UInt64.toNat_and]
  show (_ >>> 32) % 2 ^ 32 = _
  rw [Nat.shiftRight_eq_div_pow]
  have : req.flags.toNat &&& c.initReply.flags.toNat ≤ req.flags.toNat := Nat.and_le_left
  have := req.flags.toNat_lt
  omega

/-- **C21** for every `FuseServer`, client and socket. -/
theorem C21_server (c : FuseServer) (sock : Socket σ ε) (s s' : σ) (conn : FuseConnection)
    (h : c.Connects sock s (.ok conn, s')) :
    ∃ id out p s2, Carries out (frame id 0 p) ∧ sock.send out s2 = (.ok (), s') ∧
      conn.layout.versionMinor.toNat = clientMinor p ∧
      conn.layout.haveSetxattrExt = clientSetxattrExt p := by
  obtain ⟨buf, s0, n, b, s1, req, out, h1, h2, h3, h4, h5, h6, h7⟩ := fuse_connect_last h
  have hmin : (UInt32.ofNat (min (u32At (b.take n) 44) 36)).toNat = min (u32At (b.take n) 44) 36 := by
    rw [UInt32.toNat_ofNat']; omega
  have hp := C19_init 0 (acceptReply (FuseServer.initFn c req {} s1).1 (u32At (b.take n) 44))
  refine ⟨_, out, _, _, h5, h6, ?_, ?_⟩
  · rw [h7]
    refine Eq.trans ?_ hp.2.2.1.symm
    show (UInt32.ofNat (min (u32At (b.take n) 44) 36)).toUInt16.toNat = (UInt32.ofNat _).toNat
    rw [UInt32.toNat_toUInt16, hmin]; omega
  · rw [h7]
    show (FuseLayout.new2 _).haveSetxattrExt = _
    rw [new2_setxattrExt]
    have e1 : u32At (initBytes (acceptReply (c.initFn req {} s1).1 (u32At (b.take n) 44))) 4 =
        min (u32At (b.take n) 44) 36 := hp.2.2.1.trans hmin
    unfold clientSetxattrExt
    rw [e1]
    by_cases h6' : 6 ≤ u32At (b.take n) 44
    · have : u32At (initBytes (acceptReply (c.initFn req {} s1).1 (u32At (b.take n) 44))) 12 = _ :=
        (hp.2.2.2.1 (by show ¬ (UInt32.ofNat _).toNat < 5; omega)).2.1
      rw [this, decide_eq_true (by omega)]
      rfl
    · rw [decide_eq_false (by omega), Bool.false_and]
      show (c.initFn req {} s1).1.raw.flags.toNat.testBit 29 = false
      rw [server_flags, h4.2.2.2, fuseInitFlags_old (by omega), Nat.zero_and]; rfl

/-- **C21** fails for `FuseConnection::connect` in general: a closure enabling `SETXATTR_EXT`
unconditionally, and a 7.4 client.  The 8-byte reply does not carry the flag, so the client sends
`SETXATTR` in the short form, but the connection expects the extended one. -/
theorem C21_violated : ∃ (conn : FuseConnection) (p : Bytes),
    FuseConnects (scripted (ε := Unit) (.connectionClosed ()))
      (fun _ p s => (p.updateFlags (· ||| 0x20000000), s)) ⟨[.ok (initMessage 2 7 4 [])], []⟩
      (.ok conn, ⟨[], [frame 2 0 p]⟩) ∧
    p.length = 8 ∧ clientSetxattrExt p = false ∧ conn.layout.haveSetxattrExt = true := by
  obtain ⟨conn, p, h, h1, h2, h3, req, h4, h5, h6⟩ := C20_fuse_script (ε := Unit)
    (.connectionClosed ()) (fun _ p => p.updateFlags (· ||| 0x20000000)) [] (initMessage 2 7 4 [])
    (by intro m hm; cases hm) (by decide) []
  refine ⟨conn, p, h, ?_, ?_, ?_⟩
  · rw [h5]; decide
  · rw [h5]; decide
  · rw [h6, new2_setxattrExt]; decide

/-- C21 on a 7.34 client asking for the extended form, and a server offering it. -/
example : ∃ (conn : FuseConnection) (p : Bytes),
    (FuseServer.updateFlags {} (· ||| 0x20000000)).Connects (scripted (ε := Unit) (.connectionClosed ()))
      ⟨[.ok (initMessage 2 7 34 [65536, 0x20000001])], []⟩ (.ok conn, ⟨[], [frame 2 0 p]⟩) ∧
    clientSetxattrExt p = true ∧ conn.layout.haveSetxattrExt = true := by
  obtain ⟨conn, p, h, h1, h2, h3, req, h4, h5, h6⟩ := C20_fuse_script (ε := Unit)
    (.connectionClosed ())
    (fun r p => ((FuseServer.updateFlags {} (· ||| 0x20000000)).initFn r p ()).1) []
    (initMessage 2 7 34 [65536, 0x20000001]) (by intro m hm; cases hm) (by decide) []
  have hf : req.flags = 0x20000001 := by
    apply UInt64.toNat_inj.mp
    rw [h4.2.2.2]; decide
  have e : ((FuseServer.updateFlags {} (· ||| 0x20000000)).initFn req {} ()).1 =
      ((FuseServer.updateFlags {} (· ||| 0x20000000)).initFn ⟨⟨7, 34⟩, 0, 0x20000001⟩ {} ()).1 := by
    simp only [FuseServer.initFn, hf]
  refine ⟨conn, p, h, ?_, ?_⟩
  · rw [h5, e]; decide
  · rw [h6, new2_setxattrExt, e]; decide

/-! ## C22: granted features are requested and offered -/

/-- **C22**: bit `i` of the flags in the reply of a `FuseServer` is set exactly if the client requested
and the server offers the feature.  (Which half of the flags the reply has room for depends on the
version.) -/
theorem C22_fuse (c : FuseServer) (sock : Socket σ ε) (s s' : σ) (conn : FuseConnection)
    (h : c.Connects sock s (.ok conn, s')) :
    ∃ buf s0 n b s1, sock.recv buf s0 = ((.ok n, b), s1) ∧ IsFuseInit (b.take n) ∧
      ∃ id out p s2, Carries out (frame id 0 p) ∧ sock.send out s2 = (.ok (), s') ∧
        (5 ≤ u32At p 4 → ∀ i < 32, (u32At p 12).testBit i =
          ((fuseInitFlags (b.take n)).testBit i && c.initReply.flags.toNat.testBit i)) ∧
        (23 ≤ u32At p 4 → ∀ i < 32, (u32At p 32).testBit i =
          ((fuseInitFlags (b.take n)).testBit (32 + i) && c.initReply.flags.toNat.testBit (32 + i))) := by
  obtain ⟨buf, s0, n, b, s1, req, out, h1, h2, h3, h4, h5, h6, h7⟩ := fuse_connect_last h
  have hp := C19_init 0 (acceptReply (FuseServer.initFn c req {} s1).1 (u32At (b.take n) 44))
  refine ⟨buf, s0, n, b, s1, h1, h2, _, out, _, _, h5, h6, ?_, ?_⟩
  · intro hv i hi
    have e : u32At (initBytes (acceptReply (c.initFn req {} s1).1 (u32At (b.take n) 44))) 4 = _ :=
      hp.2.2.1
    have : u32At (initBytes (acceptReply (c.initFn req {} s1).1 (u32At (b.take n) 44))) 12 =
        (c.initFn req {} s1).1.raw.flags.toNat := (hp.2.2.2.1 (by omega)).2.1
    rw [this, server_flags, h4.2.2.2, Nat.testBit_mod_two_pow, decide_eq_true hi, Bool.true_and,
      Nat.testBit_and]
  · intro hv i hi
    have e : u32At (initBytes (acceptReply (c.initFn req {} s1).1 (u32At (b.take n) 44))) 4 = _ :=
      hp.2.2.1
    have : u32At (initBytes (acceptReply (c.initFn req {} s1).1 (u32At (b.take n) 44))) 32 =
        (c.initFn req {} s1).1.raw.flags2.toNat := (hp.2.2.2.2 (by omega)).2.2.2
    rw [this, server_flags2, h4.2.2.2, Nat.testBit_div_two_pow, Nat.testBit_and, Nat.add_comm]

/-- **C22** for CUSE: flags, limits, device number and name in the reply. -/
theorem C22_cuse (c : CuseServer) (sock : Socket σ ε) (s s' : σ) (conn : CuseConnection)
    (h : c.Connects sock s (.ok conn, s')) :
    ∃ buf s0 n b s1, sock.recv buf s0 = ((.ok n, b), s1) ∧ IsCuseInit (b.take n) ∧
      ∃ id out p s2, Carries out (frame id 0 p) ∧ sock.send out s2 = (.ok (), s') ∧
        (∀ i < 32, (u32At p 12).testBit i =
          ((u32At (b.take n) 52).testBit i && c.flags.toNat.testBit i)) ∧
        u32At p 16 = c.maxRead.toNat ∧ u32At p 20 = c.maxWrite.toNat ∧
        u32At p 24 = c.deviceNumber.major.toNat ∧ u32At p 28 = c.deviceNumber.minor.toNat ∧
        p.drop 72 = devname ++ c.deviceName.bytes ++ [0] := by
  obtain ⟨buf, s0, n, b, s1, req, out, h1, h2, h3, _, h4, h5, h6, h7⟩ := cuse_connect_last h
  refine ⟨buf, s0, n, b, s1, h1, h2, _, out, _, _, h5, h6, ?_, ?_, ?_, ?_, ?_, ?_⟩
  · intro i hi
    simp only [CuseReply.payload, layout_cuse_init_out, cuseAcceptReply, CuseServer.initFn,
      CuseInitResponse.setFlags]
    read_at
    rw [UInt32.toNat_and, Nat.testBit_and, h4, toNat_ofNat_u32At]
  · simp only [CuseReply.payload, layout_cuse_init_out, cuseAcceptReply, CuseServer.initFn,
      CuseInitResponse.setFlags, CuseInitResponse.setMaxWrite, CuseInitResponse.setMaxRead]
    read_at
  · simp only [CuseReply.payload, layout_cuse_init_out, cuseAcceptReply, CuseServer.initFn,
      CuseInitResponse.setFlags, CuseInitResponse.setMaxWrite, CuseInitResponse.setMaxRead]
    read_at
  · simp only [CuseReply.payload, layout_cuse_init_out, cuseAcceptReply, CuseServer.initFn,
      CuseInitResponse.setFlags, CuseInitResponse.setMaxWrite, CuseInitResponse.setMaxRead, cuseBlank]
    read_at
  · simp only [CuseReply.payload, layout_cuse_init_out, cuseAcceptReply, CuseServer.initFn,
      CuseInitResponse.setFlags, CuseInitResponse.setMaxWrite, CuseInitResponse.setMaxRead, cuseBlank]
    read_at
  · simp only [CuseReply.payload]
    rw [List.drop_left' (by
      have hs : (cuseAcceptReply (c.initFn req (cuseBlank c.deviceName c.deviceNumber) s1).1
        (u32At (b.take n) 44)).raw.spare.bytes.length = 40 := Reserved.len _
      simp [layout_cuse_init_out, hs])]
    rfl

/-- The calls that configure a `FuseServer`. -/
inductive FuseServerCall
  | congestionThreshold (x : UInt16)
  | maxBackground (x : UInt16)
  | maxReadahead (x : UInt32)
  | maxWrite (x : UInt32)
  | timeGranularity (x : UInt32)
  | updateFlags (f : UInt64 → UInt64)

/-- Configuring a server. -/
def FuseServerCall.run (c : FuseServer) : FuseServerCall → FuseServer
  | .congestionThreshold x => c.congestionThreshold x
  | .maxBackground x => c.maxBackground x
  | .maxReadahead x => c.maxReadahead x
  | .maxWrite x => c.maxWrite x
  | .timeGranularity x => c.timeGranularity x
  | .updateFlags f => c.updateFlags f

/-- The features on offer after a call: `max_write` beyond 4096 offers `BIG_WRITES` (bit 5), and
`update_flags` does what its closure says. -/
def FuseServerCall.offer (flags : UInt64) : FuseServerCall → UInt64
  | .maxWrite x => if 4096 < x.toNat then flags ||| 0x20 else flags
  | .updateFlags f => f flags
  | _ => flags

/-- The `max_write` in effect after a call. -/
def FuseServerCall.limit (limit : UInt32) : FuseServerCall → UInt32
  | .maxWrite x => x
  | _ => limit

theorem setFlags_flags (r : FuseInitResponse) (x : UInt64) : (r.setFlags x).flags = x := by
  apply UInt64.toNat_inj.mp
  have hx := x.toNat_lt
  show (((x &&& 0xFFFFFFFF).toUInt32.toUInt64) ||| ((x >>> 32).toUInt32.toUInt64 <<< 32)).toNat = _
  rw [UInt64.toNat_or, UInt32.toNat_toUInt64, UInt64.toNat_toUInt32, UInt64.toNat_and,
    UInt64.toNat_shiftLeft, UInt32.toNat_toUInt64, UInt64.toNat_toUInt32, UInt64.toNat_shiftRight]
  show (x.toNat &&& (2 ^ 32 - 1)) % 2 ^ 32 ||| ((x.toNat >>> 32) % 2 ^ 32) <<< 32 % 2 ^ 64 = _
  rw [Nat.and_two_pow_sub_one_eq_mod, Nat.mod_mod, Nat.shiftRight_eq_div_pow, Nat.shiftLeft_eq,
    Nat.mod_eq_of_lt (a := x.toNat / 2 ^ 32) (by omega), Nat.mod_eq_of_lt (a := _ * _) (by omega),
    Nat.mul_comm, Nat.or_comm, ← Nat.two_pow_add_eq_or_of_lt (by omega)]
  omega

/-- **C22**: for every sequence of configuration calls, the features on offer and the write limit are
those the calls ask for, in order. -/
theorem C22_config (calls : List FuseServerCall) :
    let c := calls.foldl FuseServerCall.run {}
    c.initReply.flags = calls.foldl FuseServerCall.offer 0 ∧
    c.initReply.maxWrite = calls.foldl FuseServerCall.limit 0 := by
  have key : ∀ (calls : List FuseServerCall) (c : FuseServer),
      (calls.foldl FuseServerCall.run c).initReply.flags =
        calls.foldl FuseServerCall.offer c.initReply.flags ∧
      (calls.foldl FuseServerCall.run c).initReply.maxWrite =
        calls.foldl FuseServerCall.limit c.initReply.maxWrite := by
    intro calls
    induction calls with
    | nil => intro c; exact ⟨rfl, rfl⟩
    | cons x calls ih =>
      intro c
      simp only [List.foldl_cons]
      have h := ih (FuseServerCall.run c x)
      rw [h.1, h.2]
      cases x with
      | congestionThreshold x => exact ⟨rfl, rfl⟩
      | maxBackground x => exact ⟨rfl, rfl⟩
      | maxReadahead x => exact ⟨rfl, rfl⟩
      | timeGranularity x => exact ⟨rfl, rfl⟩
      | updateFlags f =>
        refine ⟨?_, rfl⟩
        show calls.foldl _ (FuseInitResponse.setFlags _ _).flags = _
        rw [setFlags_flags]; rfl
      | maxWrite x =>
        simp only [FuseServerCall.run, FuseServer.maxWrite, FuseServerCall.offer, FuseServerCall.limit]
        by_cases hx : x > 4096
        · have hx' : 4096 < x.toNat := UInt32.lt_iff_toNat_lt.mp hx
          rw [if_pos hx, if_pos hx']
          refine ⟨?_, rfl⟩
          show calls.foldl _ (FuseInitResponse.setFlags _ _).flags = _
          rw [setFlags_flags]; rfl
        · have hx' : ¬ 4096 < x.toNat := fun h => hx (UInt32.lt_iff_toNat_lt.mpr h)
          rw [if_neg hx, if_neg hx']
          exact ⟨rfl, rfl⟩
  exact key calls {}

/-- C22: a server configured with a large `max_write` and asynchronous reads, in that order. -/
example : ([.maxWrite 65536, .updateFlags (· ||| 1), .maxWrite 131072] : List FuseServerCall).foldl
    FuseServerCall.offer 0 = 0x21 := by decide

/-! ## C23: the receive buffer -/

theorem write_fits {d m : Nat} (h : d ≤ max 4096 m) : 40 + (40 + d) ≤ max (m + 4096) 8192 := by omega

theorem write_fits_old {d m : Nat} (h : d ≤ max 4096 0) : 40 + (40 + d) ≤ max (m + 4096) 8192 := by omega

/-- **C23**: the receive buffer length of a connection is at least 8192, and has room for every `WRITE`
request the client may send: up to 4096 bytes, or up to `max_write` if the reply announces a larger
one (at offset 20, from 7.5 on). -/
theorem C23_fuse (sock : Socket σ ε) (initFn : FuseInitFn σ) (s s' : σ) (conn : FuseConnection)
    (h : FuseConnects sock initFn s (.ok conn, s')) :
    8192 ≤ conn.recvBufLen ∧
    ∃ id out p s2, Carries out (frame id 0 p) ∧ sock.send out s2 = (.ok (), s') ∧
      ∀ (b : FuseWriteIn) (data : Bytes) (unique nodeid : UInt64) (uid gid pid padding : UInt32),
        data.length ≤ max 4096 (if u32At p 4 < 5 then 0 else u32At p 20) →
        ((ClientReq.write b data).message unique nodeid uid gid pid padding).length ≤ conn.recvBufLen := by
  obtain ⟨buf, s0, n, b, s1, req, out, h1, h2, h3, h4, h5, h6, h7⟩ := fuse_connect_last h
  have hp := C19_init 0 (acceptReply (initFn req {} s1).1 (u32At (b.take n) 44))
  refine ⟨by rw [h7]; exact Nat.le_max_right _ _, _, out, _, _, h5, h6, ?_⟩
  intro x data unique nodeid uid gid pid padding hd
  rw [message_length]
  have hb : (ClientReq.write x data).body.length = 40 + data.length := by
    simp only [ClientReq.body, List.length_append]
    simp [layout_fuse_write_in]
  rw [hb, h7]
  show _ ≤ max _ _
  have e4 : u32At (initBytes (acceptReply (initFn req {} s1).1 (u32At (b.take n) 44))) 4 = _ :=
      hp.2.2.1
  by_cases hv : u32At (initBytes (acceptReply (initFn req {} s1).1 (u32At (b.take n) 44))) 4 < 5
  · rw [if_pos hv] at hd; exact write_fits_old hd
  · rw [if_neg hv] at hd
    have : u32At (initBytes (acceptReply (initFn req {} s1).1 (u32At (b.take n) 44))) 20 =
        (initFn req {} s1).1.raw.max_write.toNat := (hp.2.2.2.1 (by omega)).2.2.2.2
    rw [this] at hd
    exact write_fits hd

/-- **C23** for CUSE. -/
theorem C23_cuse (sock : Socket σ ε) (name : CuseDeviceName) (num : CuseDeviceNumber)
    (initFn : CuseInitFn σ) (s s' : σ) (conn : CuseConnection)
    (h : CuseConnects sock name num initFn s (.ok conn, s')) :
    8192 ≤ conn.recvBufLen ∧
    ∃ id out p s2, Carries out (frame id 0 p) ∧ sock.send out s2 = (.ok (), s') ∧
      ∀ (b : FuseWriteIn) (data : Bytes) (unique nodeid : UInt64) (uid gid pid padding : UInt32),
        data.length ≤ max 4096 (u32At p 20) →
        ((ClientReq.write b data).message unique nodeid uid gid pid padding).length ≤ conn.recvBufLen := by
  obtain ⟨buf, s0, n, b, s1, req, out, h1, h2, h3, _, h4, h5, h6, h7⟩ := cuse_connect_last h
  refine ⟨by rw [h7]; exact Nat.le_max_right _ _, _, out, _, _, h5, h6, ?_⟩
  intro x data unique nodeid uid gid pid padding hd
  rw [message_length]
  have hb : (ClientReq.write x data).body.length = 40 + data.length := by
    simp only [ClientReq.body, List.length_append]
    simp [layout_fuse_write_in]
  rw [hb, h7]
  have : u32At (CuseReply.init (cuseAcceptReply (initFn req (cuseBlank name num) s1).1
      (u32At (b.take n) 44))).payload 20 =
      (initFn req (cuseBlank name num) s1).1.raw.max_write.toNat := by
    simp only [CuseReply.payload, layout_cuse_init_out, cuseAcceptReply]
    read_at
  rw [this] at hd
  exact write_fits hd

/-- C23: the extremes of `max_write`. -/
example : recvBufLen 0 = 8192 ∧ recvBufLen 4096 = 8192 ∧ recvBufLen 4097 = 8193 ∧
    recvBufLen 0xFFFFFFFF = 4294971391 := by decide

/-! ## C52: layouts from recorded init replies -/

/-- **C52**: a FUSE layout can be made from an init reply exactly if its version is 7.0 to 7.36, and
then is the one a connection that sent this reply uses. -/
theorem C52_fuse (x : FuseInitOut) :
    ((∃ l, FuseLayout.new x = .ok l) ↔ x.major.toNat = 7 ∧ x.minor.toNat ≤ 36) ∧
    ∀ l, FuseLayout.new x = .ok l →
      l.versionMinor.toNat = x.minor.toNat ∧ l.haveSetxattrExt = x.flags.toNat.testBit 29 := by
  have h7 : x.major = 7 ↔ x.major.toNat = 7 :=
    ⟨fun h => by rw [h]; rfl, fun h => UInt32.toNat_inj.mp (h.trans rfl)⟩
  have h36 : x.minor > 36 ↔ ¬ x.minor.toNat ≤ 36 := by
    rw [gt_iff_lt, UInt32.lt_iff_toNat_lt]; show 36 < _ ↔ _; omega
  unfold FuseLayout.new
  by_cases h1 : x.major = 7
  · rw [if_neg (by simp [h1])]
    by_cases h2 : x.minor > 36
    · rw [if_pos h2]
      refine ⟨⟨fun ⟨_, h⟩ => (by cases h), fun h => absurd h.2 (h36.mp h2)⟩, fun l h => (by cases h)⟩
    · have h2' : x.minor.toNat ≤ 36 := by
        rcases Nat.lt_or_ge 36 x.minor.toNat with h | h
        · exact absurd (h36.mpr (by omega)) h2
        · exact h
      rw [if_neg h2]
      refine ⟨⟨fun _ => ⟨h7.mp h1, h2'⟩, fun _ => ⟨_, rfl⟩⟩, fun l h => ?_⟩
      cases h
      refine ⟨?_, new2_setxattrExt x⟩
      show x.minor.toUInt16.toNat = _
      rw [UInt32.toNat_toUInt16]; omega
  · rw [if_pos h1]
    exact ⟨⟨fun ⟨_, h⟩ => (by cases h), fun h => absurd (h7.mpr h.1) h1⟩, fun l h => (by cases h)⟩

/-- **C52** for CUSE. -/
theorem C52_cuse (x : CuseInitOut) :
    ((∃ l, CuseLayout.new x = .ok l) ↔ x.major.toNat = 7 ∧ x.minor.toNat ≤ 36) ∧
    ∀ l, CuseLayout.new x = .ok l → l.versionMinor.toNat = x.minor.toNat := by
  have h7 : x.major = 7 ↔ x.major.toNat = 7 :=
    ⟨fun h => by rw [h]; rfl, fun h => UInt32.toNat_inj.mp (h.trans rfl)⟩
  have h36 : x.minor > 36 ↔ ¬ x.minor.toNat ≤ 36 := by
    rw [gt_iff_lt, UInt32.lt_iff_toNat_lt]; show 36 < _ ↔ _; omega
  unfold CuseLayout.new
  by_cases h1 : x.major = 7
  · rw [if_neg (by simp [h1])]
    by_cases h2 : x.minor > 36
    · rw [if_pos h2]
      refine ⟨⟨fun ⟨_, h⟩ => (by cases h), fun h => absurd h.2 (h36.mp h2)⟩, fun l h => (by cases h)⟩
    · have h2' : x.minor.toNat ≤ 36 := by
        rcases Nat.lt_or_ge 36 x.minor.toNat with h | h
        · exact absurd (h36.mpr (by omega)) h2
        · exact h
      rw [if_neg h2]
      refine ⟨⟨fun _ => ⟨h7.mp h1, h2'⟩, fun _ => ⟨_, rfl⟩⟩, fun l h => ?_⟩
      cases h
      show x.minor.toUInt16.toNat = _
      rw [UInt32.toNat_toUInt16]; omega
  · rw [if_pos h1]
    exact ⟨⟨fun ⟨_, h⟩ => (by cases h), fun h => absurd (h7.mpr h.1) h1⟩, fun l h => (by cases h)⟩

example : FuseLayout.new { major := 7, minor := 36, flags := 0x20000000 } = .ok ⟨36, 1⟩ ∧
    FuseLayout.new { major := 7, minor := 37 } = .error .todo ∧
    FuseLayout.new { major := 7, minor := 65543 } = .error .todo ∧
    CuseLayout.new { major := 8, minor := 0 } = .error .todo := by decide

end Fuse
