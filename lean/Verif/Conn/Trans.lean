import Verif.Conn.Model
/-!
The steps of the connection machine as a relation, one constructor per operation.
-/
namespace Kafka.Conn

open Kafka

/-- `Trans P s a s'`: action `a` leads from `s` to `s'`. -/
inductive Trans (P : Params) (s : State) : Act → State → Prop where
  | start (c : Nat) (job : Job) : (s.calls c).pc = .absent →
      Trans P s (.start c job) (s.set c { s.calls c with pc := .add, job := job })
  | add (c : Nat) : (s.calls c).pc = .add →
      Trans P s (.call c) ({ s with id := s.id + 1, count := s.count + 1 }.set c
        { s.calls c with id := s.id + 1, seq := s.count + 1, pc := .rlock })
  | rlock (c : Nat) : (s.calls c).pc = .rlock → s.readLock = none →
      Trans P s (.call c) ({ s with readLock := some (.call c) }.set c { s.calls c with pc := .insert })
  | insert (c : Nat) : (s.calls c).pc = .insert →
      Trans P s (.call c) ({ s with requests := upd s.requests (s.calls c).id (some c) }.set c
        { s.calls c with pc := .runlock })
  | runlock (c : Nat) : (s.calls c).pc = .runlock →
      Trans P s (.call c) ({ s with readLock := none }.set c { s.calls c with pc := .wlock })
  | wlock (c : Nat) : (s.calls c).pc = .wlock → s.writeLock = none →
      Trans P s (.call c) ({ s with writeLock := some c }.set c { s.calls c with pc := .encode })
  | encodeErr (c : Nat) (e : WErr) : (s.calls c).pc = .encode → s.werr = some e →
      Trans P s (.call c) (s.set c { s.calls c with pc := .wunlock (some e) })
  | encode (c : Nat) : (s.calls c).pc = .encode → s.werr = none →
      Trans P s (.call c) ({ s with started := s.started ++ [c] }.set c
        { s.calls c with pc := .writing ((s.calls c).job.frame (s.calls c).id) })
  | written (c : Nat) : (s.calls c).pc = .writing [] →
      Trans P s (.call c) (s.set c { s.calls c with pc := .wunlock none })
  | wunlock (c : Nat) : (s.calls c).pc = .wunlock none →
      Trans P s (.call c) ({ s with writeLock := none }.set c { s.calls c with pc := .recv })
  | failed (c : Nat) (e : WErr) : (s.calls c).pc = .wunlock (some e) →
      Trans P s (.call c) ({ s with writeLock := none }.set c { s.calls c with pc := .done (.flushErr e) })
  | recv (c : Nat) (d : Decoder) : (s.calls c).pc = .recv → (s.calls c).chan = some d →
      Trans P s (.call c) (s.set c { s.calls c with chan := none, pc := .done (.reply d) })
  | write (c k : Nat) (rest : List Byte) : (s.calls c).pc = .writing rest → 0 < k → k ≤ rest.length →
      s.rawClosed = false →
      Trans P s (.write c k) ({ s with wire := s.wire ++ rest.take k }.set c
        { s.calls c with pc := .writing (rest.drop k), sent := (s.calls c).sent ++ rest.take k })
  | writeErr (c k : Nat) (e : WErr) (rest : List Byte) : (s.calls c).pc = .writing rest → rest ≠ [] →
      k ≤ rest.length → (s.rawClosed → k = 0) →
      Trans P s (.writeErr c k e) ({ s with wire := s.wire ++ rest.take k, werr := some e }.set c
        { s.calls c with pc := .wunlock (some e), sent := (s.calls c).sent ++ rest.take k })
  | stop : s.mpc = .top → s.cancelled = true → Trans P s .message { s with mpc := .exited }
  | head (r : Ring.State) : s.mpc = .top → s.cancelled = false →
      Ring.step P.ring (.callR s.buf (min 4 s.buf.length)) s.ring = some r →
      Trans P s .message { s with mpc := .inHead, ring := r }
  | headCrash : s.mpc = .inHead → s.ring.rpc = .idle → headSize s.ring.rdst = none →
      Trans P s .message { s with crashed := true }
  | body (size : Int) (r : Ring.State) : s.mpc = .inHead → s.ring.rpc = .idle →
      headSize s.ring.rdst = some size →
      Ring.step P.ring (.callR (room s.ring.rdst size) (min size.toNat (s.ring.rdst.length + 1))) s.ring = some r →
      Trans P s .message { s with buf := s.ring.rdst, mpc := .inBody size, ring := r }
  | bodyCrash (size : Int) : s.mpc = .inBody size → s.ring.rpc = .idle → s.buf.length < size →
      Trans P s .message { s with crashed := true }
  | parse (size : Int) (resp : Msg.ResponseHeader) (d : Decoder) : s.mpc = .inBody size → s.ring.rpc = .idle →
      size ≤ s.buf.length →
      Msg.ResponseHeader.decode 1 {} { raw := s.ring.rdst, length := size, offset := 0 } = .ok resp d →
      Trans P s .message { s with buf := s.ring.rdst, frames := s.frames ++ [s.ring.rdst.take size.toNat],
                                  mpc := .rlock resp.CorrelationId d }
  | skip (size : Int) (e : DErr) (d : Decoder) : s.mpc = .inBody size → s.ring.rpc = .idle →
      size ≤ s.buf.length →
      Msg.ResponseHeader.decode 1 {} { raw := s.ring.rdst, length := size, offset := 0 } = .err e d →
      Trans P s .message { s with buf := s.ring.rdst, frames := s.frames ++ [s.ring.rdst.take size.toNat],
                                  mpc := .top }
  | parseCrash (size : Int) : s.mpc = .inBody size → s.ring.rpc = .idle → size ≤ s.buf.length →
      Msg.ResponseHeader.decode 1 {} { raw := s.ring.rdst, length := size, offset := 0 } = .panic →
      Trans P s .message { s with buf := s.ring.rdst, frames := s.frames ++ [s.ring.rdst.take size.toNat],
                                  crashed := true }
  | mlock (id : Int32) (d : Decoder) : s.mpc = .rlock id d → s.readLock = none →
      Trans P s .message { s with readLock := some .loop, mpc := .lookup id d }
  | lookup (id : Int32) (d : Decoder) : s.mpc = .lookup id d →
      Trans P s .message { s with mpc := .delete id d (s.requests id) }
  | delete (id : Int32) (d : Decoder) (c : Option Nat) : s.mpc = .delete id d c →
      Trans P s .message { s with requests := upd s.requests id none, mpc := .runlock d c }
  | drop (d : Decoder) : s.mpc = .runlock d none →
      Trans P s .message { s with readLock := none, mpc := .top }
  | munlock (d : Decoder) (c : Nat) : s.mpc = .runlock d (some c) →
      Trans P s .message { s with readLock := none, mpc := .decode d c }
  | decodeCrash (d : Decoder) (c : Nat) : s.mpc = .decode d c → (s.calls c).job.panics d = true →
      Trans P s .message { s with crashed := true }
  | decode (d : Decoder) (c : Nat) : s.mpc = .decode d c → (s.calls c).job.panics d = false →
      Trans P s .message ({ s with mpc := .send d c }.set c
        { s.calls c with decodes := (s.calls c).decodes + 1 })
  | send (d : Decoder) (c : Nat) : s.mpc = .send d c → (s.calls c).chan = none →
      Trans P s .message ({ s with mpc := .top }.set c { s.calls c with chan := some d })
  | read (data : List Byte) (r : Ring.State) : s.lpc = .read → s.rawClosed = false → data.length ≤ P.buf →
      Ring.step P.ring (.callW data data.length) s.ring = some r →
      Trans P s (.read data) { s with ring := r, lpc := .inWrite, received := s.received ++ data }
  | readErr (data : List Byte) : s.lpc = .read → data.length ≤ P.buf → (s.rawClosed → data = []) →
      Trans P s (.readErr data) { s with lpc := .exited, lost := s.lost ++ data }
  | readNext : s.lpc = .inWrite → s.ring.wpc = .idle → Trans P s .readNext { s with lpc := .read }
  | ring (a : Ring.Action) (r : Ring.State) : inRing a = true → Ring.step P.ring a s.ring = some r →
      Trans P s (.ring a) { s with ring := r }
  | full : full s = true → Trans P s (.ring .r) { s with crashed := true }
  | closing (k : Nat) : s.closers k = .absent →
      Trans P s (.close k) { s with closers := fun j => if j = k then .cancel else s.closers j }
  | cancel (k : Nat) : s.closers k = .cancel →
      Trans P s (.close k) { s with cancelled := true,
                                    closers := fun j => if j = k then .rbClose else s.closers j }
  | rbClose (k : Nat) (r : Ring.State) : s.closers k = .rbClose → Ring.step P.ring .close s.ring = some r →
      Trans P s (.close k) { s with ring := r, closers := fun j => if j = k then .rawClose else s.closers j }
  | rawClose (k : Nat) : s.closers k = .rawClose →
      Trans P s (.close k) { s with rawClosed := true,
                                    closers := fun j => if j = k then .waitMessage else s.closers j }
  | waitMessage (k : Nat) : s.closers k = .waitMessage → s.mpc = .exited →
      Trans P s (.close k) { s with closers := fun j => if j = k then .waitRead else s.closers j }
  | waitRead (k : Nat) : s.closers k = .waitRead → s.lpc = .exited →
      Trans P s (.close k) { s with closers := fun j => if j = k then .done else s.closers j }

theorem callStep_trans {P : Params} {s s' : State} {c : Nat} (h : callStep s c = some s') :
    Trans P s (.call c) s' := by
  unfold callStep at h
  dsimp only at h
  split at h
  case h_1 => cases h
  case h_2 hp => cases h; exact .add c hp
  case h_3 hp =>
    split at h
    case h_1 hl => cases h; exact .rlock c hp hl
    case h_2 => cases h
  case h_4 hp => cases h; exact .insert c hp
  case h_5 hp => cases h; exact .runlock c hp
  case h_6 hp =>
    split at h
    case h_1 hl => cases h; exact .wlock c hp hl
    case h_2 => cases h
  case h_7 hp =>
    split at h
    case h_1 e he => cases h; exact .encodeErr c e hp he
    case h_2 he => cases h; exact .encode c hp he
  case h_8 hp => cases h; exact .written c hp
  case h_9 => cases h
  case h_10 hp => cases h; exact .wunlock c hp
  case h_11 e hp => cases h; exact .failed c e hp
  case h_12 hp =>
    split at h
    case h_1 => cases h
    case h_2 d hd => cases h; exact .recv c d hp hd
  case h_13 => cases h

theorem messageStep_trans {P : Params} {s s' : State} (h : messageStep P s = some s') :
    Trans P s .message s' := by
  unfold messageStep at h
  split at h
  case h_1 hp =>
    split at h
    case isTrue hc => cases h; exact .stop hp hc
    case isFalse hc =>
      obtain ⟨r, hr, rfl⟩ := Option.map_eq_some_iff.1 h
      exact .head r hp (by simpa using hc) hr
  case h_2 hp =>
    split at h
    case isTrue hr =>
      split at h
      case h_1 hs => cases h; exact .headCrash hp hr hs
      case h_2 size hs =>
        obtain ⟨r, hr', rfl⟩ := Option.map_eq_some_iff.1 h
        exact .body size r hp hr hs hr'
    case isFalse => cases h
  case h_3 size hp =>
    split at h
    case isTrue hr =>
      dsimp only at h
      split at h
      case isTrue hs => cases h; exact .bodyCrash size hp hr hs
      case isFalse hs =>
        split at h
        case h_1 resp d hd => cases h; exact .parse size resp d hp hr (by omega) hd
        case h_2 e d hd => cases h; exact .skip size e d hp hr (by omega) hd
        case h_3 hd => cases h; exact .parseCrash size hp hr (by omega) hd
    case isFalse => cases h
  case h_4 id d hp =>
    split at h
    case h_1 hl => cases h; exact .mlock id d hp hl
    case h_2 => cases h
  case h_5 id d hp => cases h; exact .lookup id d hp
  case h_6 id d c hp => cases h; exact .delete id d c hp
  case h_7 d c hp =>
    dsimp only at h
    split at h
    case h_1 => cases h; exact .drop d hp
    case h_2 c => cases h; exact .munlock d c hp
  case h_8 d c hp =>
    dsimp only at h
    split at h
    case isTrue hc => cases h; exact .decodeCrash d c hp hc
    case isFalse hc => cases h; exact .decode d c hp (by simpa using hc)
  case h_9 d c hp =>
    dsimp only at h
    split at h
    case h_1 => cases h
    case h_2 hc => cases h; exact .send d c hp hc
  case h_10 => cases h

theorem closeStep_trans {P : Params} {s s' : State} {k : Nat} (h : closeStep P s k = some s') :
    Trans P s (.close k) s' := by
  unfold closeStep at h
  dsimp only at h
  split at h
  case h_1 hp => cases h; exact .closing k hp
  case h_2 hp => cases h; exact .cancel k hp
  case h_3 hp =>
    obtain ⟨r, hr, rfl⟩ := Option.map_eq_some_iff.1 h
    exact .rbClose k r hp hr
  case h_4 hp => cases h; exact .rawClose k hp
  case h_5 hp =>
    split at h
    case h_1 hm => cases h; exact .waitMessage k hp hm
    case h_2 => cases h
  case h_6 hp =>
    split at h
    case h_1 hm => cases h; exact .waitRead k hp hm
    case h_2 => cases h
  case h_7 => cases h

theorem step_trans {P : Params} {a : Act} {s s' : State} (h : step P a s = some s') : Trans P s a s' := by
  unfold step at h
  split at h
  case isTrue => cases h
  case isFalse =>
    split at h
    case h_1 c job =>
      split at h
      case h_1 hp => cases h; exact .start c job hp
      case h_2 => cases h
    case h_2 c => exact callStep_trans h
    case h_3 c k =>
      split at h
      case h_1 rest hp =>
        split at h
        case isTrue hk => cases h; exact .write c k rest hp hk.1 hk.2.1 hk.2.2
        case isFalse => cases h
      case h_2 => cases h
    case h_4 c k e =>
      split at h
      case h_1 rest hp =>
        split at h
        case isTrue hk => cases h; exact .writeErr c k e rest hp hk.1 hk.2.1 hk.2.2
        case isFalse => cases h
      case h_2 => cases h
    case h_5 => exact messageStep_trans h
    case h_6 data =>
      split at h
      case isTrue hc =>
        obtain ⟨r, hr, rfl⟩ := Option.map_eq_some_iff.1 h
        exact .read data r hc.1 hc.2.1 hc.2.2 hr
      case isFalse => cases h
    case h_7 =>
      split at h
      case isTrue hc => cases h; exact .readErr _ hc.1 hc.2.1 hc.2.2
      case isFalse => cases h
    case h_8 =>
      split at h
      case isTrue hc => cases h; exact .readNext hc.1 hc.2
      case isFalse => cases h
    case h_9 a =>
      split at h
      case isTrue hf => obtain ⟨rfl, hf⟩ := hf; cases h; exact .full hf
      case isFalse =>
        split at h
        case isTrue hc =>
          obtain ⟨r, hr, rfl⟩ := Option.map_eq_some_iff.1 h
          exact .ring a r hc hr
        case isFalse => cases h
    case h_10 k => exact closeStep_trans h

/-- An invariant holds in all reachable states. -/
theorem Reach.inv {P : Params} {ok : State → Act → Prop} {I : State → Prop} (h0 : I (Conn.init P))
    (hs : ∀ {s s' : State} {a : Act}, Reach P ok s → I s → ok s a → Trans P s a s' → I s') {s : State}
    (h : Reach P ok s) : I s := by
  induction h with
  | init => exact h0
  | step a hr hok hst ih => exact hs hr ih hok (step_trans hst)

end Kafka.Conn
