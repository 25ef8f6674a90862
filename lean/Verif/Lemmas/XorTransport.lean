import Verif.Model.XorTransport
import Verif.Props.Xor

namespace Kasa.XorT

theorem cutBy_flatten (ns : List Nat) (b : Bytes) : (cutBy ns b).flatten = b := by
  induction ns generalizing b with
  | nil => simp [cutBy]
  | cons n ns ih => simp [cutBy, ih]

section
variable {Val : Type} (parse : Bytes → Option Val) (answer : Nat → Bytes)

/-- Every byte of every answer on the open connection has been consumed. -/
def Synced (s : St) : Prop := ∀ c, s.conn = some c → c.consumed = (stream answer c.sent).length

theorem stream_append (l : List Nat) (i : Nat) :
    stream answer (l ++ [i]) = stream answer l ++ (Xor.encrypt (answer i)).getD [] := by
  simp [stream]

theorem executeSend_ok (hans : ∀ i, (answer i).length < 2 ^ 32) (i : Nat) (request : Bytes)
    (e : SendEnv) (c : Conn) (hc : c.consumed = (stream answer c.sent).length) (v : Val) (c' : Conn)
    (h : executeSend parse answer i request e c = .ok (v, c')) :
    parse (answer i) = some v ∧ c'.consumed = (stream answer c'.sent).length := by
  unfold executeSend at h
  cases hreq : Xor.encrypt request with
  | none => simp [hreq] at h
  | some _ =>
    rw [hreq] at h
    cases hw : e.write with
    | some f => simp [hw] at h
    | none =>
      rw [hw] at h
      simp only at h
      have hf := Xor.C01_encrypt_eq_frame (answer i) (hans i)
      have hst : (stream answer (c.sent ++ [i])).drop c.consumed = XorSpec.frame (answer i) := by
        rw [stream_append, hc, List.drop_append, hf]; simp
      rw [hst] at h
      by_cases harr : e.arrived < (XorSpec.frame (answer i)).length
      · have := Xor.C02_truncated_fails (answer i) (hans i) e.arrived harr
          ⟨[], cutBy e.segments ((XorSpec.frame (answer i)).take e.arrived)⟩
          (by simp [cutBy_flatten])
        rw [this] at h
        simp at h
      · have htake : (XorSpec.frame (answer i)).take e.arrived = XorSpec.frame (answer i) :=
          List.take_of_length_le (by omega)
        rw [htake] at h
        obtain ⟨r', hr, hrest⟩ := Xor.C02_read_one (answer i) [] (hans i)
          ⟨[], cutBy e.segments (XorSpec.frame (answer i))⟩ (by simp [cutBy_flatten])
        rw [hr] at h
        simp only at h
        cases hp : parse (answer i) with
        | none => simp [hp] at h
        | some w =>
          simp only [hp, Except.ok.injEq, Prod.mk.injEq] at h
          obtain ⟨rfl, rfl⟩ := h
          refine ⟨rfl, ?_⟩
          simp only [hrest, List.length_nil, Nat.sub_zero, stream_append, List.length_append, hf,
            Option.getD_some, hc]

theorem send_error_closed (i : Nat) (request : Bytes) (e : SendEnv) (s s' : St) (ex : Exc)
    (h : send parse answer i request e s = (.error ex, s')) : s'.conn = none := by
  unfold send at h
  split at h
  · rename_i f _
    cases f <;> simp [connectFailed, reset, closeWithoutWait] at h <;>
      first
        | (rw [← h.2]; split <;> rfl)
        | (rw [← h.2])
  · split at h
    · rename_i f _
      cases f <;> simp [sendFailed, reset, closeWithoutWait] at h <;> rw [← h.2]
    · simp at h

theorem send_ok (hans : ∀ i, (answer i).length < 2 ^ 32) (i : Nat) (request : Bytes) (e : SendEnv)
    (s s' : St) (hs : Synced answer s) (v : Val)
    (h : send parse answer i request e s = (.ok v, s')) :
    parse (answer i) = some v ∧ Synced answer s' := by
  unfold send at h
  split at h
  · simp at h
  · rename_i c hc
    split at h
    · simp at h
    · rename_i v' c' hex
      simp only [Prod.mk.injEq, Except.ok.injEq] at h
      obtain ⟨rfl, rfl⟩ := h
      have hcs : c.consumed = (stream answer c.sent).length := by
        unfold connect at hc
        split at hc
        · rename_i c0 h0
          simp only [Except.ok.injEq] at hc
          subst hc
          exact hs _ h0
        · split at hc
          · simp only [Except.ok.injEq] at hc
            subst hc
            simp [stream]
          · simp at hc
      have := executeSend_ok parse answer hans i request e c hcs v' c' hex
      refine ⟨this.1, ?_⟩
      intro c1 h1
      simp only [Option.some.injEq] at h1
      rw [← h1]
      exact this.2

theorem send_synced (hans : ∀ i, (answer i).length < 2 ^ 32) (i : Nat) (request : Bytes) (e : SendEnv)
    (s : St) (hs : Synced answer s) : Synced answer (send parse answer i request e s).2 := by
  cases h : send parse answer i request e s with
  | mk r s' =>
    cases r with
    | ok v => exact (send_ok parse answer hans i request e s s' hs v h).2
    | error ex =>
      have := send_error_closed parse answer i request e s s' ex h
      intro c hc
      simp only at hc
      rw [this] at hc
      cases hc

end
end Kasa.XorT
