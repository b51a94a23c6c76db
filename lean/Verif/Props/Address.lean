import Verif.Props.Client
/-!
Property C63: the addresses dialled, as `net.Dial` reads them.

The specification is `splitHostPort`, the documented behaviour of `net.SplitHostPort`, with which `net.Dial` takes an
address apart: "host:port", or "[host]:port" for hosts that contain colons; square brackets nowhere else.
-/
namespace Kafka.Props

open Kafka.Client Kafka.Msg

/-- Host and port of an address; none if it is not one. -/
def splitHostPort (s : GoString) : Option (GoString × GoString) :=
  if 0x3a ∉ s then none                                         -- missing port
  else if s.head? = some 0x5b then
    let inner := (s.drop 1).takeWhile (· != 0x5d)
    if 0x5d ∉ s then none                                       -- missing ']'
    else if (splitAddr s).1.length ≠ inner.length + 2 then none -- the last colon follows the ']'
    else if 0x5b ∈ s.drop 1 then none                           -- unexpected '['
    else if 0x5d ∈ s.drop (inner.length + 2) then none          -- unexpected ']'
    else some (inner, (splitAddr s).2)
  else if 0x3a ∈ (splitAddr s).1 then none                      -- too many colons
  else if 0x5b ∈ s then none                                    -- unexpected '['
  else if 0x5d ∈ s then none                                    -- unexpected ']'
  else some (splitAddr s)

example : splitHostPort (goString "broker:9092") = some (goString "broker", goString "9092") := by decide
example : splitHostPort (goString "[fe80::1]:9092") = some (goString "fe80::1", goString "9092") := by decide
example : splitHostPort (goString "fe80::1:9092") = none := by decide
example : splitHostPort (goString "[::1]") = none := by decide

/-- The address denotes the port of the host. -/
def Denotes (addr host : GoString) (port : Int32) : Prop :=
  ∃ p, splitHostPort addr = some (host, p) ∧ decimal p = port.toInt

/-- The full claim: for every host without brackets and every port, the address dialled denotes them. -/
def C63_statement : Prop :=
  ∀ (host : GoString) (port : Int32), 0x5b ∉ host → 0x5d ∉ host → Denotes (hostPort host port) host port

theorem itoa_bytes (i : Int) : ∀ c ∈ itoa i, c = 0x2d ∨ (48 ≤ c.toNat ∧ c.toNat ≤ 57) := by
  intro c hc
  unfold itoa at hc
  rcases List.mem_append.1 hc with h | h
  · split at h
    · left; simpa using h
    · simp at h
  · obtain ⟨x, hx, rfl⟩ := List.mem_map.1 h
    have h1 := digit_byte hx
    right
    rw [BitVec.toNat_ofNat]
    omega

theorem itoa_no_bracket (i : Int) : (0x5b : Byte) ∉ itoa i ∧ (0x5d : Byte) ∉ itoa i := by
  constructor <;> intro h <;> rcases itoa_bytes i _ h with e | ⟨_, e⟩ <;> revert e <;> decide

theorem splitAddr_hostPort (host : GoString) (port : Int32) :
    splitAddr (hostPort host port) = (host, itoa port.toInt) := by
  have hr : (hostPort host port).reverse = (itoa port.toInt).reverse ++ 0x3a :: host.reverse := by
    simp [hostPort]
  have hall : ∀ c ∈ (itoa port.toInt).reverse, (c != 0x3a) = true := by
    intro c hc
    simpa using itoa_no_colon _ c (List.mem_reverse.1 hc)
  unfold splitAddr
  rw [hr, List.dropWhile_append_of_pos hall, List.takeWhile_append_of_pos hall]
  simp

theorem mem_hostPort {b : Byte} (host : GoString) (port : Int32) (hb : b ≠ 0x3a) (hi : b ∉ itoa port.toInt) :
    b ∈ hostPort host port ↔ b ∈ host := by
  unfold hostPort
  rw [List.mem_append, List.mem_cons]
  exact ⟨fun h => h.elim id (fun h => h.elim (fun e => absurd e hb) (fun e => absurd e hi)), Or.inl⟩

/-- Exactly the hosts without colons and brackets are dialled as meant. -/
theorem C63_exact (host : GoString) (port : Int32) :
    Denotes (hostPort host port) host port ↔ 0x3a ∉ host ∧ 0x5b ∉ host ∧ 0x5d ∉ host := by
  have hs := splitAddr_hostPort host port
  have hc : (0x3a : Byte) ∈ hostPort host port := by simp [hostPort]
  have hb := itoa_no_bracket port.toInt
  have m1 : (0x5b : Byte) ∈ hostPort host port ↔ 0x5b ∈ host := mem_hostPort host port (by decide) hb.1
  have m2 : (0x5d : Byte) ∈ hostPort host port ↔ 0x5d ∈ host := mem_hostPort host port (by decide) hb.2
  constructor
  · rintro ⟨p, h, _⟩
    unfold splitHostPort at h
    rw [if_neg (by simpa using hc), hs] at h
    dsimp only at h
    split at h
    · -- an address that begins with a bracket denotes a shorter host
      rename_i hh
      split at h
      · cases h
      · split at h
        · cases h
        · rename_i hl
          split at h
          · cases h
          · split at h
            · cases h
            · simp only [Option.some.injEq, Prod.mk.injEq] at h
              rw [h.1] at hl
              omega
    · split at h
      · cases h
      · rename_i h1
        split at h
        · cases h
        · rename_i h2
          split at h
          · cases h
          · rename_i h3
            exact ⟨h1, fun x => h2 (m1.2 x), fun x => h3 (m2.2 x)⟩
  · rintro ⟨h1, h2, h3⟩
    refine ⟨itoa port.toInt, ?_, decimal_itoa _⟩
    unfold splitHostPort
    rw [if_neg (by simpa using hc), hs, if_neg, if_neg h1, if_neg (fun x => h2 (m1.1 x)), if_neg (fun x => h3 (m2.1 x))]
    intro hh
    exact h2 (m1.1 (List.mem_of_mem_head? hh))

/-- A host with a colon and without brackets, an IPv6 address, cannot be dialled at all: "too many colons". -/
theorem C63_colon_fails {host : GoString} (h : 0x3a ∈ host) (hb : 0x5b ∉ host) (port : Int32) :
    splitHostPort (hostPort host port) = none := by
  have hs := splitAddr_hostPort host port
  have hc : (0x3a : Byte) ∈ hostPort host port := by simp [hostPort]
  unfold splitHostPort
  rw [if_neg (by simpa using hc), hs, if_neg, if_pos h]
  intro hh
  have := List.mem_of_mem_head? hh
  exact hb ((mem_hostPort host port (by decide) (itoa_no_bracket port.toInt).1).1 this)

/-- The claim is false: a broker at ::1 cannot be dialled. -/
theorem C63_fails : ¬ C63_statement := fun h =>
  absurd ((C63_exact (goString "::1") 9092).1 (h _ _ (by decide) (by decide))).1 (by decide)

/-- The address dialled is the first event of `NewBroker`. -/
theorem newBroker_dials {addr : GoString} {opts : List Opt} {env : Env} {tr : Trace}
    (hm : dialMode (buildConfig opts) ≠ .nilDialer) :
    ∃ r rest, (newBroker addr opts env tr).2 = tr ++ .dial addr (dialMode (buildConfig opts)) r :: rest := by
  have hd : ∀ (conn : Nat) (tr : Trace), ∃ ev, (doCall conn (Broker.apiVersions { config := buildConfig opts } {}) env tr).2 =
      tr ++ [ev] := by
    intro conn tr
    unfold doCall
    dsimp only
    split
    · exact ⟨_, rfl⟩
    · exact ⟨_, rfl⟩
    · exact ⟨_, rfl⟩
    · split <;> exact ⟨_, rfl⟩
  cases he : env.dial tr addr with
  | some e =>
    have hc : connect addr opts env tr = (.err (.wrap (.dial addr) (.net e)), tr ++ [.dial addr (dialMode (buildConfig opts)) (some e)]) := by
      unfold connect
      split
      · rename_i hn; exact absurd hn hm
      · rw [he]
    refine ⟨some e, [], ?_⟩
    unfold newBroker
    simp only [M.bind, hc]
  | none =>
    have hc : connect addr opts env tr = (.ok tr.dialed, tr ++ [.dial addr (dialMode (buildConfig opts)) none]) := by
      unfold connect
      split
      · rename_i hn; exact absurd hn hm
      · rw [he]
    obtain ⟨ev, hev⟩ := hd tr.dialed (tr ++ [.dial addr (dialMode (buildConfig opts)) none])
    rw [← wrap_snd .create] at hev
    refine ⟨none, [ev], ?_⟩
    unfold newBroker
    simp only [M.bind, hc]
    split
    · rename_i a tr2 e2
      rw [e2] at hev
      dsimp only at hev
      split <;> simp [hev]
    all_goals
      rename_i e2
      rw [e2] at hev
      exact hev.trans (by simp)

/-- What holds: the leader, controller or coordinator named is dialled, if its host has neither colons nor brackets.
Missing: other hosts. -/
theorem C63_partial {c : Client} (hmode : dialMode (buildConfig c.opts) ≠ .nilDialer) {env : Env} {tr tr1 : Trace} :
    (∀ (topic : GoString) (partition : Int32) (m : MetadataResponse) (host : GoString) (port : Int32),
      c.metadata [topic] env tr = (.ok m, tr1) → Distinct m → NamesLeader m topic partition host port →
      0x3a ∉ host → 0x5b ∉ host → 0x5d ∉ host →
      ∃ addr r rest, (c.dialLeader topic partition env tr).2 = tr1 ++ .dial addr (dialMode (buildConfig c.opts)) r :: rest ∧
        Denotes addr host port) ∧
    (∀ (m : MetadataResponse) (host : GoString) (port : Int32), c.metadata [] env tr = (.ok m, tr1) → Distinct m →
      NamesController m host port → 0x3a ∉ host → 0x5b ∉ host → 0x5d ∉ host →
      ∃ addr r rest, (c.dialController env tr).2 = tr1 ++ .dial addr (dialMode (buildConfig c.opts)) r :: rest ∧
        Denotes addr host port) ∧
    (∀ (group : GoString) (h : Handle) (resp : FindCoordinatorResponse) (tr2 : Trace), FirstUp env c.opts tr c.bootstrap h tr1 →
      doCall h.conn (h.broker.findCoordinator { Key := group, KeyType := 0 }) env tr1 = (.ok resp, tr2) →
      0x3a ∉ resp.Host → 0x5b ∉ resp.Host → 0x5d ∉ resp.Host →
      ∃ addr r rest, (c.dialGroupCoordinator group env tr).2 = tr2 ++ .dial addr (dialMode (buildConfig c.opts)) r :: rest ∧
        Denotes addr resp.Host resp.Port) := by
  refine ⟨?_, ?_, ?_⟩
  · intro topic partition m host port hm hd hn h1 h2 h3
    rw [C40_leader_found hm hd hn]
    obtain ⟨r, rest, e⟩ := newBroker_dials (addr := hostPort host port) (env := env) (tr := tr1) hmode
    exact ⟨_, r, rest, e, (C63_exact host port).2 ⟨h1, h2, h3⟩⟩
  · intro m host port hm hd hn h1 h2 h3
    have e0 : c.dialController env tr = newBroker (hostPort host port) c.opts env tr1 := by
      rcases C40_controller hm with ⟨host', port', hn', e0⟩ | ⟨h0, _⟩
      · obtain ⟨b, hb, k1, rfl, rfl⟩ := hn
        obtain ⟨b', hb', k1', rfl, rfl⟩ := hn'
        rw [e0, hd.brokers b' hb' b hb (k1'.trans k1.symm)]
      · exact absurd hn (h0 _ _)
    rw [e0]
    obtain ⟨r, rest, e⟩ := newBroker_dials (addr := hostPort host port) (env := env) (tr := tr1) hmode
    exact ⟨_, r, rest, e, (C63_exact host port).2 ⟨h1, h2, h3⟩⟩
  · intro group h resp tr2 hf hdo h1 h2 h3
    rw [C40_coordinator_partial hf hdo]
    obtain ⟨r, rest, e⟩ := newBroker_dials (addr := hostPort resp.Host resp.Port) (env := env) (tr := tr2) hmode
    exact ⟨_, r, rest, e, (C63_exact _ _).2 ⟨h1, h2, h3⟩⟩

/-- The claim could hold: `net.JoinHostPort` puts brackets around hosts with colons. -/
theorem joinHostPort_denotes (host : GoString) (port : Int32) (h1 : 0x5b ∉ host) (h2 : 0x5d ∉ host) :
    Denotes (0x5b :: host ++ 0x5d :: 0x3a :: itoa port.toInt) host port := by
  have hb := itoa_no_bracket port.toInt
  have hs : splitAddr (0x5b :: host ++ 0x5d :: 0x3a :: itoa port.toInt) = (0x5b :: host ++ [0x5d], itoa port.toInt) := by
    have h := splitAddr_hostPort (0x5b :: host ++ [0x5d]) port
    rw [hostPort] at h
    simpa using h
  have hw : (host ++ 0x5d :: 0x3a :: itoa port.toInt).takeWhile (· != 0x5d) = host := by
    rw [List.takeWhile_append_of_pos (by
      intro c hc
      have : c ≠ 0x5d := fun e => h2 (e ▸ hc)
      simpa using this)]
    simp
  have hd : (host ++ 0x5d :: 0x3a :: itoa port.toInt).drop (host.length + 1) = 0x3a :: itoa port.toInt := by
    rw [show host ++ 0x5d :: 0x3a :: itoa port.toInt = (host ++ [0x5d]) ++ 0x3a :: itoa port.toInt by simp,
      List.drop_left' (by simp)]
  refine ⟨itoa port.toInt, ?_, decimal_itoa _⟩
  unfold splitHostPort
  have m1 : ¬ (0x3a : Byte) ∉ 0x5b :: host ++ 0x5d :: 0x3a :: itoa port.toInt := fun h => h (by simp)
  have m2 : ¬ (0x5d : Byte) ∉ 0x5b :: host ++ 0x5d :: 0x3a :: itoa port.toInt := fun h => h (by simp)
  have e1 : (0x5b :: host ++ 0x5d :: 0x3a :: itoa port.toInt).drop 1 = host ++ 0x5d :: 0x3a :: itoa port.toInt := rfl
  have e2 : (0x5b :: host ++ 0x5d :: 0x3a :: itoa port.toInt).drop (host.length + 2) =
      (host ++ 0x5d :: 0x3a :: itoa port.toInt).drop (host.length + 1) := rfl
  have m3 : (0x5b : Byte) ∉ host ++ 0x5d :: 0x3a :: itoa port.toInt := by
    rw [List.mem_append, List.mem_cons, List.mem_cons]
    rintro (h | h | h | h)
    · exact h1 h
    · revert h; decide
    · revert h; decide
    · exact hb.1 h
  have m4 : (0x5d : Byte) ∉ 0x3a :: itoa port.toInt := by
    rw [List.mem_cons]
    rintro (h | h)
    · revert h; decide
    · exact hb.2 h
  have m5 : (0x5b :: host ++ 0x5d :: 0x3a :: itoa port.toInt).head? = some 0x5b := rfl
  rw [hs, if_neg m1, if_pos m5]
  dsimp only
  rw [e1, hw, if_neg m2, if_neg (by simp), if_neg m3, e2, hd, if_neg m4]

/-- Hosts and addresses as in the theorems. -/
example : Denotes (hostPort (goString "kafka-1.example.com") 9092) (goString "kafka-1.example.com") 9092 :=
  (C63_exact _ _).2 (by decide)

end Kafka.Props
