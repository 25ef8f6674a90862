import Verif.Model.Config
import Verif.Spec.Config
/-!
# C19: serialising configurations
-/

namespace Kasa.Config

open ConfigSpec

theorem Family.ofJson_value (f : Family) : Family.ofJson (.str f.value) = .ok f := by cases f <;> decide +kernel

theorem Encryption.ofJson_value (e : Encryption) : Encryption.ofJson (.str e.value) = .ok e := by
  cases e <;> decide +kernel

theorem get?_field_append (k k' : String) (v : Option Json) (d : List (String × Json)) :
    Dict.get? (field k v ++ d) k' = if k = k' then (match v with | some j => some j | none => Dict.get? d k') else Dict.get? d k' := by
  cases v with
  | none => simp [field]
  | some j => by_cases h : k = k' <;> simp [field, h, Dict.get?]

theorem get?_field (k k' : String) (v : Option Json) : Dict.get? (field k v) k' = if k = k' then v else none := by
  have := get?_field_append k k' v []
  simp only [List.append_nil, Dict.get?_nil] at this
  rw [this]
  cases v <;> rfl

/-- Reading back an optional number. -/
theorem optional_int {d : List (String × Json)} {k : String} {v : Option Int} (h : Dict.get? d k = v.map .num) :
    optional d k none (orNull readInt) = .ok v := by
  unfold optional
  rw [h]
  cases v <;> rfl

theorem optional_str {d : List (String × Json)} {k : String} {v : Option String} (h : Dict.get? d k = v.map .str) :
    optional d k none (orNull readStr) = .ok v := by
  unfold optional
  rw [h]
  cases v <;> rfl

theorem connParams_roundTrip (c : ConnParams) : ConnParams.fromDict c.toDict = .ok c := by
  unfold ConnParams.toDict ConnParams.fromDict
  have h1 : ∀ d, required (field "device_family" (some (.str c.family.value)) ++ d) "device_family"
      (fun j => invalid (Family.ofJson j)) = .ok c.family := by
    intro d
    unfold required
    rw [get?_field_append]
    simp [Family.ofJson_value, invalid]
  simp only [List.append_assoc]
  simp only [h1]
  rw [show required (field "device_family" (some (.str c.family.value)) ++
      (field "encryption_type" (some (.str c.encryption.value)) ++ (field "login_version" (c.loginVersion.map .num) ++
        (field "https" (some (.bool c.https)) ++ field "http_port" (c.httpPort.map .num))))) "encryption_type"
      (fun j => invalid (Encryption.ofJson j)) = .ok c.encryption by
    unfold required
    simp [get?_field_append, Encryption.ofJson_value, invalid]]
  rw [optional_int (v := c.loginVersion) (by simp [get?_field_append, get?_field]; cases c.loginVersion <;> rfl)]
  rw [optional_int (v := c.httpPort) (by simp [get?_field_append, get?_field])]
  simp only [optional, get?_field_append, bind, Except.bind, readBool]
  rfl

/-- The value of each key of a serialised configuration. -/
theorem look_toDict (c : DeviceConfig) :
    look c.toDict "host" = some (.str c.host) ∧ look c.toDict "timeout" = c.timeout.map .num ∧
    look c.toDict "port_override" = c.portOverride.map .num ∧
    look c.toDict "credentials" = c.credentials.map Credentials.toDict ∧
    look c.toDict "credentials_hash" = c.credentialsHash.map .str ∧
    look c.toDict "batch_size" = c.batchSize.map .num ∧
    look c.toDict "connection_type" = some c.connectionType.toDict ∧
    look c.toDict "aes_keys" = c.aesKeys.map KeyPair.toDict := by
  unfold DeviceConfig.toDict look
  simp only [List.append_assoc, get?_field_append, get?_field]
  refine ⟨by simp, ?_, ?_, ?_, ?_, ?_, by simp, by simp⟩
  · cases c.timeout <;> simp
  · cases c.portOverride <;> simp
  · cases c.credentials <;> simp
  · cases c.credentialsHash <;> simp
  · cases c.batchSize <;> simp

theorem fromDict_of_look (c : DeviceConfig) (d : List (String × Json))
    (h1 : Dict.get? d "host" = some (.str c.host)) (h2 : Dict.get? d "timeout" = c.timeout.map .num)
    (h3 : Dict.get? d "port_override" = c.portOverride.map .num)
    (h4 : Dict.get? d "credentials" = c.credentials.map Credentials.toDict)
    (h5 : Dict.get? d "credentials_hash" = c.credentialsHash.map .str)
    (h6 : Dict.get? d "batch_size" = c.batchSize.map .num)
    (h7 : Dict.get? d "connection_type" = some c.connectionType.toDict)
    (h8 : Dict.get? d "aes_keys" = c.aesKeys.map KeyPair.toDict) :
    DeviceConfig.fromDict (.obj d) = .ok { c with timeout := some (c.timeout.getD defaultTimeout), httpClient := none } := by
  unfold DeviceConfig.fromDict
  have k1 : required d "host" readStr = .ok c.host := by unfold required; rw [h1]; rfl
  have k2 : optional d "timeout" (some defaultTimeout) (orNull readInt) = .ok (some (c.timeout.getD defaultTimeout)) := by
    unfold optional; rw [h2]; cases c.timeout <;> rfl
  have k4 : optional d "credentials" none (orNull Credentials.fromDict) = .ok c.credentials := by
    unfold optional; rw [h4]
    cases c.credentials with
    | none => rfl
    | some cr => rfl
  have k7 : optional d "connection_type" defaultConnection ConnParams.fromDict = .ok c.connectionType := by
    unfold optional; rw [h7]; exact connParams_roundTrip _
  have k8 : optional d "aes_keys" none (orNull KeyPair.fromDict) = .ok c.aesKeys := by
    unfold optional; rw [h8]
    cases c.aesKeys with
    | none => rfl
    | some kp => rfl
  simp only [k1, k2, optional_int h3, k4, optional_str h5, optional_int h6, k7, k8]
  rfl

theorem fromDict_toDict (c : DeviceConfig) :
    DeviceConfig.fromDict c.toDict = .ok { c with timeout := some (c.timeout.getD defaultTimeout), httpClient := none } := by
  obtain ⟨h1, h2, h3, h4, h5, h6, h7, h8⟩ := look_toDict c
  exact fromDict_of_look c _ h1 h2 h3 h4 h5 h6 h7 h8

/-- C19: reading back what was written gives the configuration, apart from the HTTP client.  Partial: the timeout must be
set. -/
theorem C19_round_trip_partial (c : DeviceConfig) (t : Int) (ht : c.timeout = some t) :
    DeviceConfig.fromDict c.toDict = .ok { c with httpClient := none } := by
  rw [fromDict_toDict, ht]
  congr 2

/-- C19 fails for a configuration without timeout: it comes back with the default one. -/
theorem C19_no_timeout (c : DeviceConfig) (ht : c.timeout = none) :
    ∃ c', DeviceConfig.fromDict c.toDict = .ok c' ∧ c'.timeout = some 5 ∧ c' ≠ c := by
  refine ⟨_, fromDict_toDict c, by rw [ht]; rfl, ?_⟩
  intro h
  have := congrArg DeviceConfig.timeout h
  rw [ht] at this
  cases this

/-- C19: what is not in the dict has its default value. -/
theorem C19_defaults (host : String) (f : Family) (e : Encryption) :
    DeviceConfig.fromDict (.obj [("host", .str host)]) =
      .ok ⟨host, some 5, none, none, none, none, ⟨.iotSmartPlugSwitch, .xor, none, false, none⟩, none, none⟩ ∧
    ConnParams.fromDict (.obj [("device_family", .str f.value), ("encryption_type", .str e.value)]) =
      .ok ⟨f, e, none, false, none⟩ := by
  refine ⟨rfl, ?_⟩
  have h1 : required [("device_family", Json.str f.value), ("encryption_type", .str e.value)] "device_family"
      (fun j => invalid (Family.ofJson j)) = .ok f := by
    unfold required
    rw [Dict.get?_cons, if_pos rfl]
    simp only [Family.ofJson_value, invalid]
  have h2 : required [("device_family", Json.str f.value), ("encryption_type", .str e.value)] "encryption_type"
      (fun j => invalid (Encryption.ofJson j)) = .ok e := by
    unfold required
    rw [Dict.get?_cons, if_neg (by simp), Dict.get?_cons, if_pos rfl]
    simp only [Encryption.ofJson_value, invalid]
  unfold ConnParams.fromDict
  simp only [h1, h2]
  rfl

/-- C19: two configurations with the same serialised form differ at most in their HTTP clients. -/
theorem C19_injective (c d : DeviceConfig) (h : c.toDict = d.toDict) :
    { c with httpClient := none } = { d with httpClient := none } := by
  have h1 := look_toDict c
  have h2 := look_toDict d
  rw [h] at h1
  have hc := fromDict_toDict c
  have hd := fromDict_toDict d
  rw [h, hd] at hc
  have ht : c.timeout = d.timeout := by
    have := h1.2.1.symm.trans h2.2.1
    cases hc : c.timeout <;> cases hd : d.timeout <;> rw [hc, hd] at this <;> simp_all
  have e := Except.ok.inj hc
  cases c; cases d
  simp only [DeviceConfig.mk.injEq] at e ht ⊢
  simp_all

theorem noNull_field {k : String} {v : Option Json} (hv : ∀ j, v = some j → NoNull j) :
    ∀ kv ∈ field k v, NoNull kv.2 := by
  intro kv hm
  cases v with
  | none => simp [field] at hm
  | some j => simp only [field, List.mem_singleton] at hm; subst hm; exact hv j rfl

/-- C19: fields that are not set are left out: nothing in the serialised form is null. -/
theorem C19_omits_none (c : DeviceConfig) : NoNull c.toDict := by
  have num : ∀ (v : Option Int) j, v.map .num = some j → NoNull j := by
    intro v j h; cases v <;> cases h; exact .num _
  have str : ∀ (v : Option String) j, v.map .str = some j → NoNull j := by
    intro v j h; cases v <;> cases h; exact .str _
  refine .obj _ fun kv hm => ?_
  simp only [List.mem_append] at hm
  rcases hm with ((((((hm | hm) | hm) | hm) | hm) | hm) | hm) | hm
  · exact noNull_field (by rintro j h; cases h; exact .str _) kv hm
  · exact noNull_field (num _) kv hm
  · exact noNull_field (num _) kv hm
  · refine noNull_field ?_ kv hm
    intro j h
    cases hc : c.credentials with
    | none => rw [hc] at h; cases h
    | some cr =>
      rw [hc] at h; cases h
      refine .obj _ fun kv hm => ?_
      simp only [List.mem_cons, List.not_mem_nil, or_false] at hm
      rcases hm with rfl | rfl <;> exact .str _
  · exact noNull_field (str _) kv hm
  · exact noNull_field (num _) kv hm
  · refine noNull_field ?_ kv hm
    rintro j h; cases h
    refine .obj _ fun kv hm => ?_
    simp only [List.mem_append] at hm
    rcases hm with (((hm | hm) | hm) | hm) | hm
    · exact noNull_field (by rintro j h; cases h; exact .str _) kv hm
    · exact noNull_field (by rintro j h; cases h; exact .str _) kv hm
    · exact noNull_field (num _) kv hm
    · exact noNull_field (by rintro j h; cases h; exact .bool _) kv hm
    · exact noNull_field (num _) kv hm
  · refine noNull_field ?_ kv hm
    intro j h
    cases hc : c.aesKeys with
    | none => rw [hc] at h; cases h
    | some cr =>
      rw [hc] at h; cases h
      refine .obj _ fun kv hm => ?_
      simp only [List.mem_cons, List.not_mem_nil, or_false] at hm
      rcases hm with rfl | rfl <;> exact .str _

/-- C19: how the credentials are written.  With a hash (or when excluded), the result is the same for every value of the
credentials and has no entry for them; the hash given is the one written, an empty one removes it; without a hash the
configuration's own is written; every other field is as in the plain serialised form. -/
theorem C19_credentials (c : DeviceConfig) (hash : Option String) (exclude : Bool) :
    (hash.isSome ∨ exclude = true →
      look (c.toDictControl hash exclude) "credentials" = none ∧
      ∀ cr, ({ c with credentials := cr } : DeviceConfig).toDictControl hash exclude = c.toDictControl hash exclude) ∧
    (hash = none → exclude = false → c.toDictControl hash exclude = c.toDict) ∧
    (∀ h, hash = some h → h ≠ "" → look (c.toDictControl hash exclude) "credentials_hash" = some (.str h)) ∧
    (hash = some "" → look (c.toDictControl hash exclude) "credentials_hash" = none) ∧
    (hash = none → look (c.toDictControl hash exclude) "credentials_hash" = look c.toDict "credentials_hash") ∧
    (∀ k ∈ fields, k ≠ "credentials" → k ≠ "credentials_hash" →
      look (c.toDictControl hash exclude) k = look c.toDict k) := by
  have other : ∀ (cr : Option Credentials) (ch : Option String), ∀ k ∈ fields, k ≠ "credentials" → k ≠ "credentials_hash" →
      look ({ c with credentials := cr, credentialsHash := ch } : DeviceConfig).toDict k = look c.toDict k := by
    intro cr ch k hk h1 h2
    obtain ⟨a1, a2, a3, a4, a5, a6, a7, a8⟩ := look_toDict c
    obtain ⟨b1, b2, b3, b4, b5, b6, b7, b8⟩ := look_toDict ({ c with credentials := cr, credentialsHash := ch })
    simp only [fields, List.mem_cons, List.not_mem_nil, or_false] at hk
    rcases hk with rfl | rfl | rfl | rfl | rfl | rfl | rfl | rfl
    · rw [a1, b1]
    · rw [a2, b2]
    · rw [a3, b3]
    · exact absurd rfl h1
    · exact absurd rfl h2
    · rw [a6, b6]
    · rw [a7, b7]
    · rw [a8, b8]
  unfold DeviceConfig.toDictControl
  refine ⟨?_, ?_, ?_, ?_, ?_, ?_⟩
  · intro hs
    cases hash with
    | none =>
      have he : exclude = true := by simpa using hs
      subst he
      exact ⟨(look_toDict _).2.2.2.1, fun cr => rfl⟩
    | some h => exact ⟨(look_toDict _).2.2.2.1, fun cr => rfl⟩
  · rintro rfl rfl; rfl
  · rintro h rfl hne
    refine (look_toDict _).2.2.2.2.1.trans ?_
    simp only [if_pos hne]
    rfl
  · rintro rfl
    exact (look_toDict _).2.2.2.2.1
  · rintro rfl
    cases exclude with
    | false => rfl
    | true => exact ((look_toDict _).2.2.2.2.1).trans (look_toDict c).2.2.2.2.1.symm
  · intro k hk h1 h2
    cases hash with
    | none =>
      cases exclude with
      | false => rfl
      | true => exact other none c.credentialsHash k hk h1 h2
    | some h => exact other none _ k hk h1 h2

/-- C19: a connection type is accepted exactly when family and encryption are known, and then holds what was given; else
`KasaException`. -/
theorem C19_from_values (family encryption : Json) (lv : Option Int) (https : Option Bool) (port : Option Int) :
    (∀ f e, family = .str (Family.value f) → encryption = .str (Encryption.value e) →
      fromValues family encryption lv https port =
        .ok { family := f, encryption := e, loginVersion := lv, https := https = some true, httpPort := port }) ∧
    ((∀ f, family ≠ .str (Family.value f)) ∨ (∀ e, encryption ≠ .str (Encryption.value e)) →
      fromValues family encryption lv https port = .error .kasa) := by
  unfold fromValues
  constructor
  · rintro f e rfl rfl
    rw [Family.ofJson_value, Encryption.ofJson_value]
    cases https with
    | none => rfl
    | some b => cases b <;> rfl
  · rintro (h | h)
    · have : Family.ofJson family = .error (.other "ValueError") := by
        unfold Family.ofJson
        rw [List.find?_eq_none.mpr (by intro f _; simpa using h f)]
      rw [this]
    · have : Encryption.ofJson encryption = .error (.other "ValueError") := by
        unfold Encryption.ofJson
        rw [List.find?_eq_none.mpr (by intro f _; simpa using h f)]
      rw [this]
      cases Family.ofJson family <;> rfl

/-! ## Examples -/

example : (ofHost "192.0.2.1").timeout = some 5 := rfl

example : ({ ofHost "h" with credentials := some ⟨"u", "p"⟩ } : DeviceConfig).toDictControl (some "xyz") false =
    .obj [("host", .str "h"), ("timeout", .num 5), ("credentials_hash", .str "xyz"),
      ("connection_type", .obj [("device_family", .str "IOT.SMARTPLUGSWITCH"), ("encryption_type", .str "XOR"),
        ("https", .bool false)])] := rfl

end Kasa.Config
