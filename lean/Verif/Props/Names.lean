import Verif.Spec.Names
import Verif.Props.IotDevice
/-!
# C63: names, networks and credentials survive the trip to the device and back
-/

namespace Kasa.Names
open PyM NamesSpec Ops

/-! ## Helper lemmas -/

theorem encode_length (b : Bytes) : (B64.encode b).length % 4 = 0 := by
  induction b using B64.encode.induct with
  | case1 => rfl
  | case2 a => simp [B64.encode]
  | case3 a b => simp [B64.encode]
  | case4 a b c rest ih => simp only [B64.encode, List.length_cons]; omega

theorem alphabet_ascii : ∀ c ∈ '=' :: B64.alphabet, c.toNat < 128 := by decide +kernel

theorem b64_encodes (s : String) : Encodes (b64 s) s := by
  refine ⟨_, rfl, ?_, ?_, ?_⟩
  · rw [String.toList_ofList]; exact encode_length _
  · intro c hc
    rw [String.toList_ofList] at hc
    exact B64.mem_encode hc
  · rw [String.toList_ofList]; exact B64.decode_encode _

theorem means_of_encodes {x : Json} {s : String} (h : Encodes x s) : Means x s := by
  obtain ⟨t, h1, _, h3, h4⟩ := h
  exact ⟨t, h1, fun c hc => alphabet_ascii c (List.mem_cons.2 (h3 c hc)), h4⟩

theorem unb64_iff (x : Json) (s : String) : unb64 x = .ok s ↔ Means x s := by
  constructor
  · intro h
    cases x with
    | str t =>
      simp only [unb64] at h
      split at h
      · rename_i ha
        split at h
        · cases h
        · rename_i b hb
          split at h
          · cases h
          · rename_i u hu
            cases h
            refine ⟨t, rfl, fun c hc => ?_, ?_⟩
            · have := List.all_eq_true.1 ha c hc
              simpa using this
            · rw [hb, utf8_of_fromUtf8 hu]
      · cases h
    | _ => cases h
  · rintro ⟨t, rfl, ha, hd⟩
    simp only [unb64, hd, fromUtf8_utf8]
    rw [if_pos]
    rw [List.all_eq_true]
    intro c hc
    simpa using ha c hc

theorem means_truthy {x : Json} {s : String} (h : Means x s) (hs : s ≠ "") : x.truthy = true := by
  obtain ⟨t, rfl, _, hd⟩ := h
  simp only [Json.truthy]
  cases ht : (t != "") with
  | true => rfl
  | false =>
    exfalso
    have : t = "" := by simpa using ht
    subst this
    have h2 : utf8 s = utf8 "" := (Option.some.inj hd).symm
    exact hs (utf8_injective h2)

theorem b64_empty : b64 "" = .str "" := rfl

theorem item_iff (x : Json) (k : String) (v : Json) : item x k = .ok v ↔ x.get? k = some v := by
  cases x with
  | obj kvs =>
    simp only [item, Json.get?]
    cases h : Dict.get? kvs k <;> simp
  | _ => simp [item, Json.get?]

theorem getElem?_pairs {α β : Type} {f : α → Except Exc β} (xs : List α) (ys : List β) :
    xs.mapM f = .ok ys ↔ Pairwise (fun x y => f x = .ok y) xs ys := by
  induction xs generalizing ys with
  | nil =>
    constructor
    · intro h
      cases h
      exact ⟨rfl, fun i x y h => by simp at h⟩
    · rintro ⟨h, _⟩
      cases ys with
      | nil => rfl
      | cons y ys => simp at h
  | cons x xs ih =>
    rw [List.mapM_cons]
    constructor
    · intro h
      cases hx : f x with
      | error e => rw [hx] at h; cases h
      | ok y =>
        cases hxs : xs.mapM f with
        | error e => rw [hx, hxs] at h; cases h
        | ok ys' =>
          rw [hx, hxs] at h
          cases h
          obtain ⟨h1, h2⟩ := (ih ys').1 hxs
          refine ⟨by simp [h1], fun i a b ha hb => ?_⟩
          cases i with
          | zero => cases ha; cases hb; exact hx
          | succ i => exact h2 i a b (by simpa using ha) (by simpa using hb)
    · rintro ⟨h1, h2⟩
      cases ys with
      | nil => simp at h1
      | cons y ys =>
        have hx : f x = .ok y := h2 0 x y rfl rfl
        have hxs : xs.mapM f = .ok ys := (ih ys).2 ⟨by simpa using h1, fun i a b ha hb =>
          h2 (i + 1) a b (by simpa using ha) (by simpa using hb)⟩
        rw [hx, hxs]
        rfl

theorem netForScanInfo_iff (entry : Json) (n : Network) : netForScanInfo entry = .ok n ↔ Describes entry n := by
  unfold netForScanInfo Describes
  constructor
  · intro h
    cases h1 : item entry "ssid" with
    | error e => rw [h1] at h; cases h
    | ok x =>
      rw [h1] at h
      replace h : (unb64 x >>= fun ssid => _) = _ := h
      cases h2 : unb64 x with
      | error e => rw [h2] at h; cases h
      | ok ssid =>
        rw [h2] at h
        replace h : (item entry "cipher_type" >>= fun c => _) = _ := h
        cases h3 : item entry "cipher_type" with
        | error e => rw [h3] at h; cases h
        | ok a =>
          rw [h3] at h
          replace h : (item entry "key_type" >>= fun c => _) = _ := h
          cases h4 : item entry "key_type" with
          | error e => rw [h4] at h; cases h
          | ok b =>
            rw [h4] at h
            replace h : (item entry "channel" >>= fun c => _) = _ := h
            cases h5 : item entry "channel" with
            | error e => rw [h5] at h; cases h
            | ok c =>
              rw [h5] at h
              replace h : (item entry "signal_level" >>= fun c => _) = _ := h
              cases h6 : item entry "signal_level" with
              | error e => rw [h6] at h; cases h
              | ok d =>
                rw [h6] at h
                replace h : (item entry "bssid" >>= fun c => _) = _ := h
                cases h7 : item entry "bssid" with
                | error e => rw [h7] at h; cases h
                | ok e =>
                  rw [h7] at h
                  cases h
                  exact ⟨⟨x, (item_iff _ _ _).1 h1, (unb64_iff _ _).1 h2⟩, (item_iff _ _ _).1 h3, (item_iff _ _ _).1 h4,
                    (item_iff _ _ _).1 h5, (item_iff _ _ _).1 h6, (item_iff _ _ _).1 h7⟩
  · rintro ⟨⟨x, h1, h2⟩, h3, h4, h5, h6, h7⟩
    rw [(item_iff _ _ _).2 h1, (item_iff _ _ _).2 h3, (item_iff _ _ _).2 h4, (item_iff _ _ _).2 h5,
      (item_iff _ _ _).2 h6, (item_iff _ _ _).2 h7]
    show (unb64 x >>= fun ssid => _) = _
    rw [(unb64_iff _ _).2 h2]
    rfl

section
variable {σ : Type} (env : Env σ)

/-! ## SMART devices -/

/-- C63: `set_alias(a)` makes one request, naming the strict base64 of the UTF-8 of `a`; as soon as the device reports that
nickname, `alias` is `a`.  The empty name reads as no name. -/
theorem C63_name (a : String) (s : St σ) :
    ∃ x, (setAlias env a s).2.sent = s.sent ++ [(.obj [("set_device_info", .obj [("nickname", x)])], none)] ∧
      Encodes x a ∧
      ∀ info : List (String × Json), Dict.get? info "nickname" = some x →
        alias info = .ok (if a = "" then none else some a) := by
  refine ⟨b64 a, rfl, b64_encodes a, fun info hinfo => ?_⟩
  unfold alias
  simp only [hinfo]
  split
  · rename_i ht
    split
    · rename_i h
      subst h
      rw [b64_empty] at ht
      cases ht
    · rw [(unb64_iff _ _).2 (means_of_encodes (b64_encodes a))]
      rfl
  · rename_i ht
    split
    · rfl
    · rename_i h
      exact absurd (means_truthy (means_of_encodes (b64_encodes a)) h) ht

/-- C63: whatever the device reports, `alias` is the string that the nickname means, or `None` if there is none; a
nickname that means nothing raises. -/
theorem C63_name_read (info : List (String × Json)) (r : Option String) :
    alias info = .ok r ↔
      match Dict.get? info "nickname" with
      | none => r = none
      | some x => if x.truthy then ∃ a, r = some a ∧ Means x a else r = none := by
  unfold alias
  cases Dict.get? info "nickname" with
  | none => simp [eq_comm]
  | some x =>
    simp only
    split
    · constructor
      · intro h
        cases hu : unb64 x with
        | error e => rw [hu] at h; cases h
        | ok a =>
          rw [hu] at h
          cases h
          exact ⟨a, rfl, (unb64_iff _ _).1 hu⟩
      · rintro ⟨a, rfl, h⟩
        rw [(unb64_iff _ _).2 h]
        rfl
    · simp [eq_comm]

/-- C63: `ssid` likewise. -/
theorem C63_ssid_read (info : List (String × Json)) (r : String) :
    ssid info = .ok r ↔
      match Dict.get? info "ssid" with
      | none => r = "No SSID"
      | some x => if x.truthy then Means x r else r = "No SSID" := by
  unfold ssid
  cases Dict.get? info "ssid" with
  | none => simp [eq_comm]
  | some x =>
    simp only
    split
    · exact unb64_iff x r
    · simp [eq_comm]

/-- C63: a scan makes one request; it returns networks exactly if the device answers with a list that describes them,
one entry for each, in this order. -/
theorem C63_scan (s : St σ) (nets : List Network) :
    (wifiScan env s).2.sent =
        s.sent ++ [(.obj [("get_wireless_scan_info", .obj [("start_index", .num 0)])], none)] ∧
      ∀ entries : List Json,
        (env.query (.obj [("get_wireless_scan_info", .obj [("start_index", .num 0)])]) none s.world).1 =
            .ok (.obj [("get_wireless_scan_info", .obj [("ap_list", .arr entries)])]) →
          ((wifiScan env s).1 = .ok nets ↔ Pairwise Describes entries nets) := by
  have hrun : wifiScan env s = (query env (.obj [("get_wireless_scan_info", .obj [("start_index", .num 0)])]) none >>=
      fun resp => lift (networks resp)) s := rfl
  rw [hrun, bind_apply]
  constructor
  · unfold query
    cases (env.query (.obj [("get_wireless_scan_info", .obj [("start_index", .num 0)])]) none s.world).1 with
    | error e => rfl
    | ok resp => simp only [lift_apply]
  · intro entries h
    unfold query
    simp only [h, lift_apply]
    have hn : networks (.obj [("get_wireless_scan_info", .obj [("ap_list", .arr entries)])]) =
        entries.mapM netForScanInfo := rfl
    rw [hn, getElem?_pairs]
    simp only [netForScanInfo_iff]

/-- C63: without credentials `wifi_join` raises and sends nothing. -/
theorem C63_join_refused (state : List (String × Json)) (ssid password keytype : String) (s : St σ) :
    wifiJoin env none state ssid password keytype s = (.error (.auth none), s) := rfl

/-- C63: `wifi_join` makes one request, never repeated, that carries the network, its password, the kind of key, the
user's credentials and the device's time; the answer is returned, an error reported by the device raised, and any other
failure of the library taken for the device having left the network. -/
theorem C63_join (user pass ssid password keytype : String) (state : List (String × Json)) (time : Json) (s : St σ)
    (htime : Dict.get? state "get_device_time" = some time) :
    ∃ u p w n : Json, Encodes u user ∧ Encodes p pass ∧ Encodes w password ∧ Encodes n ssid ∧
      ∃ request : Json, request = .obj [("set_qs_info", .obj [
          ("account", .obj [("username", u), ("password", p)]),
          ("wireless", .obj [("key_type", .str keytype), ("password", w), ("ssid", n)]),
          ("time", time)])] ∧
        (wifiJoin env (some (user, pass)) state ssid password keytype s).2.sent = s.sent ++ [(request, some 0)] ∧
        (wifiJoin env (some (user, pass)) state ssid password keytype s).1 =
          match (env.query request (some 0) s.world).1 with
          | .ok answer => .ok answer
          | .error (.device c) => .error (.device c)
          | .error (.auth c) => .error (.auth c)
          | .error (.retryable c) => .error (.retryable c)
          | .error (.other x) => .error (.other x)
          | .error .base => .error .base
          | .error _ => .ok (.obj []) := by
  refine ⟨_, _, _, _, b64_encodes user, b64_encodes pass, b64_encodes password, b64_encodes ssid, _, rfl, ?_⟩
  unfold wifiJoin
  simp only [htime, joinPayload]
  cases hq : (env.query (.obj [("set_qs_info", .obj [
          ("account", .obj [("username", b64 user), ("password", b64 pass)]),
          ("wireless", .obj [("key_type", .str keytype), ("password", b64 password), ("ssid", b64 ssid)]),
          ("time", time)])]) (some 0) s.world) with
  | mk o w =>
    cases o with
    | ok answer =>
      rw [tryExcept_ok (a := answer) (by unfold query; rw [hq])]
      exact ⟨rfl, rfl⟩
    | error e =>
      rw [tryExcept_error (e := e) (by unfold query; rw [hq])]
      cases e <;> exact ⟨rfl, rfl⟩

/-- C63: `update_credentials` makes one request that carries the credentials and the device's time, and returns what
comes of it. -/
theorem C63_credentials (user pass : String) (state : List (String × Json)) (time : Json) (s : St σ)
    (htime : Dict.get? state "get_device_time" = some time) :
    ∃ u p : Json, Encodes u user ∧ Encodes p pass ∧
      ∃ request : Json, request = .obj [("set_qs_info", .obj [
          ("account", .obj [("username", u), ("password", p)]), ("time", time)])] ∧
        (updateCredentials env state user pass s).2.sent = s.sent ++ [(request, none)] ∧
        (updateCredentials env state user pass s).1 = (env.query request none s.world).1 := by
  refine ⟨_, _, b64_encodes user, b64_encodes pass, _, rfl, ?_⟩
  unfold updateCredentials
  simp only [htime]
  exact ⟨rfl, rfl⟩

/-- C63 does not extend to devices that have not reported a time: both raise a `KeyError`. -/
theorem C63_no_time (user pass ssid password keytype : String) (state : List (String × Json)) (s : St σ)
    (htime : Dict.get? state "get_device_time" = none) :
    wifiJoin env (some (user, pass)) state ssid password keytype s = (.error (.other "KeyError"), s) ∧
      updateCredentials env state user pass s = (.error (.other "KeyError"), s) := by
  unfold wifiJoin updateCredentials
  simp only [htime]
  exact ⟨rfl, rfl⟩

/-! ## Legacy devices -/

/-- The request that names a target and a command. -/
def command (target cmd : String) (arg : Json) : Json := .obj [(target, .obj [(cmd, arg)])]

/-- The first target fails: the exchange failed, or the device refused. -/
def Fails (r : Except Exc Json) (target cmd : String) : Prop :=
  (∃ e, r = .error e ∧ e.isException = true) ∨ ∃ response, r = .ok response ∧ IotSpec.Refused target cmd response

theorem legacyQuery_sent (target cmd : String) (arg : Json) (s : St σ) :
    (legacyQuery env target cmd arg none s).2 =
      { world := (env.query (command target cmd arg) none s.world).2
        sent := s.sent ++ [(command target cmd arg, none)] } := rfl

theorem legacyQuery_fails (target cmd : String) (arg : Json) (s : St σ)
    (h : Fails (env.query (command target cmd arg) none s.world).1 target cmd) :
    (legacyQuery env target cmd arg none s).1 = .error .kasa := by
  rcases h with ⟨e, h, he⟩ | ⟨response, h, hr⟩
  · have := Iot.C23_transport (fun request => (env.query request none s.world).1) target cmd (some arg) none e h
    rw [he] at this
    exact this
  · exact Iot.C23_refused_partial (fun request => (env.query request none s.world).1) target cmd (some arg) none response h hr

theorem legacyQuery_accepted (target cmd : String) (arg : Json) (s : St σ) (response y : Json)
    (h : (env.query (command target cmd arg) none s.world).1 = .ok response) (hp : IotSpec.Proper response)
    (ha : IotSpec.Accepted target cmd response y) :
    ∃ z, (legacyQuery env target cmd arg none s).1 = .ok (.obj z) ∧ ∀ k, y.get? k = Dict.get? z k :=
  Iot.C23_accepted (fun request => (env.query request none s.world).1) target cmd (some arg) none response y h hp ha

/-- The outcome of a command that may go to either target. -/
theorem eitherTarget_cases (cmd : String) (arg : Json) (s : St σ) :
    (∀ response y, (env.query (command "netif" cmd arg) none s.world).1 = .ok response → IotSpec.Proper response →
      IotSpec.Accepted "netif" cmd response y →
      (eitherTarget env cmd arg s).2.sent = s.sent ++ [(command "netif" cmd arg, none)] ∧
        ∃ z, (eitherTarget env cmd arg s).1 = .ok (.obj z) ∧ ∀ k, y.get? k = Dict.get? z k) ∧
    (Fails (env.query (command "netif" cmd arg) none s.world).1 "netif" cmd →
      (eitherTarget env cmd arg s).2.sent = s.sent ++ [(command "netif" cmd arg, none),
        (command "smartlife.iot.common.softaponboarding" cmd arg, none)] ∧
      (∀ response y, (env.query (command "smartlife.iot.common.softaponboarding" cmd arg) none
            (env.query (command "netif" cmd arg) none s.world).2).1 = .ok response → IotSpec.Proper response →
          IotSpec.Accepted "smartlife.iot.common.softaponboarding" cmd response y →
          ∃ z, (eitherTarget env cmd arg s).1 = .ok (.obj z) ∧ ∀ k, y.get? k = Dict.get? z k) ∧
      (Fails (env.query (command "smartlife.iot.common.softaponboarding" cmd arg) none
            (env.query (command "netif" cmd arg) none s.world).2).1 "smartlife.iot.common.softaponboarding" cmd →
          (eitherTarget env cmd arg s).1 = .error .kasa)) := by
  constructor
  · intro response y h hp ha
    obtain ⟨z, hz, hk⟩ := legacyQuery_accepted env "netif" cmd arg s response y h hp ha
    have hrun : eitherTarget env cmd arg s = legacyQuery env "netif" cmd arg none s := by
      have := tryExcept_ok (h := fun ex => if ex.isKasa then
        legacyQuery env "smartlife.iot.common.softaponboarding" cmd arg none else raise ex)
        (show legacyQuery env "netif" cmd arg none s = (.ok (.obj z), (legacyQuery env "netif" cmd arg none s).2) by
          rw [← hz])
      unfold eitherTarget
      rw [this, ← hz]
    rw [hrun, legacyQuery_sent]
    exact ⟨rfl, z, hz, hk⟩
  · intro h
    have h1 := legacyQuery_fails env "netif" cmd arg s h
    have hrun : eitherTarget env cmd arg s =
        legacyQuery env "smartlife.iot.common.softaponboarding" cmd arg none (legacyQuery env "netif" cmd arg none s).2 := by
      have := tryExcept_error (h := fun ex => if ex.isKasa then
        legacyQuery env "smartlife.iot.common.softaponboarding" cmd arg none else raise ex)
        (show legacyQuery env "netif" cmd arg none s = (.error .kasa, (legacyQuery env "netif" cmd arg none s).2) by
          rw [← h1])
      unfold eitherTarget
      rw [this]
      rfl
    rw [hrun, legacyQuery_sent, legacyQuery_sent]
    refine ⟨by simp only [List.append_assoc, List.cons_append, List.nil_append], ?_, ?_⟩
    · intro response y h2 hp ha
      exact legacyQuery_accepted env _ cmd arg _ response y h2 hp ha
    · intro h2
      exact legacyQuery_fails env _ cmd arg _ h2

/-- The settings of a network as legacy devices want them. -/
def stainfo (ssid password : String) (k : Int) : Json :=
  .obj [("ssid", .str ssid), ("password", .str password), ("key_type", .num k)]

/-- C63: `wifi_join` on a legacy device sends network, password and kind of key as they are to `netif`; if the device
accepts, that is all, and its answer is returned. -/
theorem C63_legacy_join (toInt : String → Option Int) (ssid password keytype : String) (k : Int)
    (hk : toInt keytype = some k) (s : St σ) (response y : Json)
    (h : (env.query (command "netif" "set_stainfo" (stainfo ssid password k)) none s.world).1 = .ok response)
    (hp : IotSpec.Proper response) (ha : IotSpec.Accepted "netif" "set_stainfo" response y) :
    (legacyJoin env toInt ssid password keytype s).2.sent =
        s.sent ++ [(command "netif" "set_stainfo" (stainfo ssid password k), none)] ∧
      ∃ z, (legacyJoin env toInt ssid password keytype s).1 = .ok (.obj z) ∧ ∀ key, y.get? key = Dict.get? z key := by
  unfold legacyJoin
  simp only [hk]
  exact (eitherTarget_cases env "set_stainfo" (stainfo ssid password k) s).1 response y h hp ha

/-- C63: if that fails, or the device refuses, the same is sent to `softaponboarding`, and what comes of that is the
outcome. -/
theorem C63_legacy_join_again (toInt : String → Option Int) (ssid password keytype : String) (k : Int)
    (hk : toInt keytype = some k) (s : St σ)
    (h : Fails (env.query (command "netif" "set_stainfo" (stainfo ssid password k)) none s.world).1 "netif" "set_stainfo") :
    (legacyJoin env toInt ssid password keytype s).2.sent =
        s.sent ++ [(command "netif" "set_stainfo" (stainfo ssid password k), none),
          (command "smartlife.iot.common.softaponboarding" "set_stainfo" (stainfo ssid password k), none)] ∧
      (∀ response y, (env.query (command "smartlife.iot.common.softaponboarding" "set_stainfo" (stainfo ssid password k)) none
            (env.query (command "netif" "set_stainfo" (stainfo ssid password k)) none s.world).2).1 = .ok response →
          IotSpec.Proper response →
          IotSpec.Accepted "smartlife.iot.common.softaponboarding" "set_stainfo" response y →
          ∃ z, (legacyJoin env toInt ssid password keytype s).1 = .ok (.obj z) ∧ ∀ key, y.get? key = Dict.get? z key) ∧
      (Fails (env.query (command "smartlife.iot.common.softaponboarding" "set_stainfo" (stainfo ssid password k)) none
            (env.query (command "netif" "set_stainfo" (stainfo ssid password k)) none s.world).2).1
            "smartlife.iot.common.softaponboarding" "set_stainfo" →
          (legacyJoin env toInt ssid password keytype s).1 = .error .kasa) := by
  unfold legacyJoin
  simp only [hk]
  exact (eitherTarget_cases env "set_stainfo" (stainfo ssid password k) s).2 h

/-- C63: a kind of key that is no number is refused before anything is sent. -/
theorem C63_legacy_join_refused (toInt : String → Option Int) (ssid password keytype : String)
    (hk : toInt keytype = none) (s : St σ) :
    legacyJoin env toInt ssid password keytype s = (.error (.other "ValueError"), s) := by
  unfold legacyJoin
  simp only [hk]
  rfl

/-- An entry of a legacy device's list that the library understands. -/
def Plain (entry : List (String × Json)) : Prop :=
  (∀ kv ∈ entry, kv.1 ∈ ["ssid", "key_type", "cipher_type", "bssid", "channel", "rssi", "signal_level"]) ∧
    Dict.get? entry "ssid" ≠ none ∧ Dict.get? entry "key_type" ≠ none

theorem has_of_get? {d : List (String × Json)} {k : String} (h : Dict.get? d k ≠ none) : Dict.has d k = true :=
  Dict.has_iff.2 (Decidable.of_not_not fun hn => h (Dict.get?_eq_none_iff.2 hn))

theorem legacyNetworks_plain (info : List (String × Json)) (entries : List (List (String × Json)))
    (hi : Dict.get? info "ap_list" = some (.arr (entries.map .obj))) (hplain : ∀ e ∈ entries, Plain e) :
    legacyNetworks (.obj info) = .ok entries := by
  unfold legacyNetworks
  have hc : contains (.obj info) "ap_list" = .ok true := by
    simp only [contains]
    rw [has_of_get? (by rw [hi]; simp)]
  have hit : item (.obj info) "ap_list" = .ok (.arr (entries.map .obj)) := by
    simp only [item, hi]
  rw [hc, hit]
  show (entries.map Json.obj).mapM legacyNetwork = _
  rw [getElem?_pairs]
  refine ⟨by simp, fun i x y hx hy => ?_⟩
  rw [List.getElem?_map, hy] at hx
  cases hx
  obtain ⟨h1, h2, h3⟩ := hplain y (List.mem_of_getElem? hy)
  unfold legacyNetwork
  simp only
  rw [if_pos]
  simp only [Bool.and_eq_true, List.all_eq_true, List.contains_iff_mem]
  exact ⟨⟨h1, has_of_get? h2⟩, has_of_get? h3⟩

/-- C63: a scan on a legacy device asks `netif`, and only if that fails or is refused `softaponboarding`; the networks
are the entries of the list, in order. -/
theorem C63_legacy_scan (s : St σ) (response y : Json) (entries : List (List (String × Json)))
    (hp : IotSpec.Proper response) (hy : y.get? "ap_list" = some (.arr (entries.map .obj)))
    (hplain : ∀ e ∈ entries, Plain e) :
    ((env.query (command "netif" "get_scaninfo" (.obj [("refresh", .num 1)])) none s.world).1 = .ok response →
      IotSpec.Accepted "netif" "get_scaninfo" response y →
      (legacyScan env s).1 = .ok entries ∧
        (legacyScan env s).2.sent = s.sent ++ [(command "netif" "get_scaninfo" (.obj [("refresh", .num 1)]), none)]) ∧
    (Fails (env.query (command "netif" "get_scaninfo" (.obj [("refresh", .num 1)])) none s.world).1 "netif"
        "get_scaninfo" →
      (env.query (command "smartlife.iot.common.softaponboarding" "get_scaninfo" (.obj [("refresh", .num 1)])) none
        (env.query (command "netif" "get_scaninfo" (.obj [("refresh", .num 1)])) none s.world).2).1 = .ok response →
      IotSpec.Accepted "smartlife.iot.common.softaponboarding" "get_scaninfo" response y →
      (legacyScan env s).1 = .ok entries ∧
        (legacyScan env s).2.sent = s.sent ++ [(command "netif" "get_scaninfo" (.obj [("refresh", .num 1)]), none),
          (command "smartlife.iot.common.softaponboarding" "get_scaninfo" (.obj [("refresh", .num 1)]), none)]) := by
  have hrun : ∀ z, (∀ k, y.get? k = Dict.get? z k) →
      (eitherTarget env "get_scaninfo" (.obj [("refresh", .num 1)]) s).1 = .ok (.obj z) →
      legacyScan env s = (.ok entries, (eitherTarget env "get_scaninfo" (.obj [("refresh", .num 1)]) s).2) := by
    intro z hz h
    unfold legacyScan
    rw [bind_apply]
    cases hx : eitherTarget env "get_scaninfo" (.obj [("refresh", .num 1)]) s with
    | mk o s1 =>
      rw [hx] at h
      cases h
      simp only [lift_apply]
      rw [legacyNetworks_plain z entries (by rw [← hz]; exact hy) hplain]
  constructor
  · intro h1 h2
    obtain ⟨h3, z, h4, h5⟩ := (eitherTarget_cases env "get_scaninfo" (.obj [("refresh", .num 1)]) s).1 response y h1 hp h2
    rw [hrun z h5 h4]
    exact ⟨rfl, h3⟩
  · intro h0 h1 h2
    obtain ⟨h3, h4, _⟩ := (eitherTarget_cases env "get_scaninfo" (.obj [("refresh", .num 1)]) s).2 h0
    obtain ⟨z, h5, h6⟩ := h4 response y h1 hp h2
    rw [hrun z h6 h5]
    exact ⟨rfl, h3⟩

/-- C63: `set_alias(a)` on a legacy device, or on a socket of a strip, makes one request with `a` as it is; `alias` is
whatever the device reports. -/
theorem C63_legacy_name (ids : Option Json) (a : String) (s : St σ) (sysinfo : List (String × Json))
    (h : Dict.get? sysinfo "alias" = some (.str a)) :
    ∃ request, (legacySetAlias env ids a s).2.sent = s.sent ++ [(request, none)] ∧
      request.get? "system" = some (.obj [("set_dev_alias", .obj [("alias", .str a)])]) ∧
      request.get? "context" = ids.map (fun i => .obj [("child_ids", i)]) ∧
      legacyAlias sysinfo = some (.str a) :=
  ⟨_, rfl, (Iot.C23_request "system" "set_dev_alias" (some (.obj [("alias", .str a)])) ids (by decide)).1,
    (Iot.C23_request "system" "set_dev_alias" (some (.obj [("alias", .str a)])) ids (by decide)).2, h⟩

/-! ## Cameras -/

theorem mapInfo_get? (basic acc : List (String × Json)) (k : String) (hw : Dict.WF basic)
    (hk : ∀ k' ∈ Dict.keys basic, camKey k' = camKey k → k' = k) :
    Dict.get? (basic.foldl (fun d kv => Dict.set d (camKey kv.1) kv.2) acc) (camKey k) =
      (Dict.get? basic k).or (Dict.get? acc (camKey k)) := by
  induction basic generalizing acc with
  | nil => rfl
  | cons kv rest ih =>
    obtain ⟨k1, v⟩ := kv
    obtain ⟨h1, h2⟩ := Dict.WF_cons.1 hw
    rw [List.foldl_cons, ih _ h2 (fun k' hk' => hk k' (by rw [Dict.keys_cons]; exact List.mem_cons_of_mem _ hk')),
      Dict.get?_cons]
    by_cases he : k1 = k
    · subst he
      rw [Dict.get?_eq_none_iff.2 h1, if_pos rfl, Dict.get?_set_self]
      rfl
    · rw [if_neg he, Dict.get?_set_ne]
      intro hc
      exact he (hk k1 (by rw [Dict.keys_cons]; exact List.mem_cons_self) hc)

theorem camKey_alias (k : String) (h : camKey k = "alias") : k = "device_alias" ∨ k = "alias" := by
  unfold camKey at h
  simp only [Dict.get?_cons, Dict.get?_nil] at h
  repeat' split at h
  all_goals first
    | (left; rename_i he; exact he.symm)
    | (right; exact h)
    | (simp only [Option.getD_some] at h; exact absurd h (by decide))

/-- C63: `set_alias(a)` on a camera makes one request with `a` as it is; `alias` is the name the device reports in its
basic information. -/
theorem C63_camera_name (a : String) (s : St σ) (basic : List (String × Json)) (hw : Dict.WF basic)
    (ha : Dict.get? basic "alias" = none) :
    (cameraSetAlias env a s).2.sent =
        s.sent ++ [(.obj [("setDeviceAlias", .obj [("system", .obj [("sys", .obj [("dev_alias", .str a)])])])], none)] ∧
      cameraAlias (mapInfo basic) = Dict.get? basic "device_alias" := by
  refine ⟨rfl, ?_⟩
  unfold cameraAlias mapInfo
  have := mapInfo_get? basic [] "device_alias" hw (fun k' hk' h => by
    rcases camKey_alias k' h with h | h
    · exact h
    · subst h
      exact absurd hk' (Dict.get?_eq_none_iff.1 ha))
  rw [show camKey "device_alias" = "alias" from rfl] at this
  rw [this]
  cases Dict.get? basic "device_alias" <;> rfl

end

/-! ## Witnesses -/

/-- A device that answers in turn. -/
def scripted : Env (List (Except Exc Json)) where
  query _ _ w := (w.headD (.error .timeout), w.tail)

/-- Non-vacuity of `C63_name` and `C63_name_read`: what is sent for a name. -/
example : (setAlias scripted "Büro" { world := [.ok .null] }).2.sent =
      [(.obj [("set_device_info", .obj [("nickname", .str "QsO8cm8=")])], none)] ∧
    alias [("nickname", .str "QsO8cm8=")] = .ok (some "Büro") := by
  refine ⟨by decide +kernel, ?_⟩
  obtain ⟨x, h1, _, h3⟩ := C63_name scripted "Büro" { world := [.ok .null] }
  have hx : x = .str "QsO8cm8=" := by
    have h4 : (setAlias scripted "Büro" { world := [.ok .null] }).2.sent =
      [(.obj [("set_device_info", .obj [("nickname", .str "QsO8cm8=")])], none)] := by decide +kernel
    rw [h4] at h1
    simp only [List.nil_append, List.cons.injEq, Prod.mk.injEq, Json.obj.injEq, and_true, true_and] at h1
    exact h1.symm
  subst hx
  exact h3 _ rfl

/-- A network as a SMART device reports it. -/
def sampleEntry : Json :=
  .obj [("ssid", .str "Zm9v"), ("cipher_type", .num 2), ("key_type", .str "wpa2_psk"), ("channel", .num 0),
    ("signal_level", .num 3), ("bssid", .str "00")]

/-- Non-vacuity of `C63_scan`. -/
example : (wifiScan scripted { world := [.ok (.obj [("get_wireless_scan_info", .obj [("ap_list", .arr [sampleEntry])])])] }).1 =
    .ok [{ ssid := "foo", cipherType := .num 2, keyType := .str "wpa2_psk", channel := .num 0, signalLevel := .num 3,
           bssid := .str "00" }] := by
  rw [(C63_scan scripted _ _).2 [sampleEntry] rfl]
  refine ⟨rfl, fun i x y hx hy => ?_⟩
  cases i with
  | succ i => simp at hx
  | zero =>
    cases hx
    cases hy
    exact ⟨⟨.str "Zm9v", by decide +kernel, "Zm9v", rfl, by decide +kernel, by decide +kernel⟩, by decide +kernel,
      by decide +kernel, by decide +kernel, by decide +kernel, by decide +kernel⟩

/-- Non-vacuity of `C63_join`: the device leaves the network, or refuses. -/
example : (wifiJoin scripted (some ("u", "p")) [("get_device_time", .num 1)] "net" "pw" "wpa2_psk"
      { world := [.error .timeout] }).1 = .ok (.obj []) ∧
    (wifiJoin scripted (some ("u", "p")) [("get_device_time", .num 1)] "net" "pw" "wpa2_psk"
      { world := [.error (.device (some (-1010)))] }).1 = .error (.device (some (-1010))) := by decide +kernel

/-- The answer to an accepted `set_stainfo`. -/
def joined (target : String) : Json := .obj [(target, .obj [("set_stainfo", .obj [("err_code", .num 0)])])]

theorem joined_proper (target : String) : IotSpec.Proper (joined target) := by
  refine .obj _ (by simp [Dict.WF, Dict.keys]) ?_
  intro kv hkv
  simp only [List.mem_cons, List.not_mem_nil, or_false] at hkv
  subst hkv
  refine .obj _ (by simp [Dict.WF, Dict.keys]) ?_
  intro kv hkv
  simp only [List.mem_cons, List.not_mem_nil, or_false] at hkv
  subst hkv
  refine .obj _ (by simp [Dict.WF, Dict.keys]) ?_
  intro kv hkv
  simp only [List.mem_cons, List.not_mem_nil, or_false] at hkv
  subst hkv
  exact .num 0

/-- Non-vacuity of `C63_legacy_join`. -/
example : IotSpec.Proper (joined "netif") ∧ IotSpec.Accepted "netif" "set_stainfo" (joined "netif") (.obj []) ∧
    (legacyJoin scripted (fun _ => some 3) "net" "pw" "3" { world := [.ok (joined "netif")] }).1 = .ok (.obj []) := by
  refine ⟨joined_proper _, .mk _ _ _ _ rfl rfl (.inl rfl) (.inr (.inl rfl)) ?_, by decide +kernel⟩
  intro k
  by_cases hk : k = "err_code"
  · rw [if_pos hk]; rfl
  · rw [if_neg hk, Dict.get?_cons, if_neg (fun h => hk h.symm)]

/-- Non-vacuity of `C63_legacy_join_again`: no answer on `netif`. -/
example : Fails (.error .timeout) "netif" "set_stainfo" ∧
    legacyJoin scripted (fun _ => some 3) "net" "pw" "3"
      { world := [.error .timeout, .ok (joined "smartlife.iot.common.softaponboarding")] } =
      (.ok (.obj []), { world := [], sent := [(command "netif" "set_stainfo" (stainfo "net" "pw" 3), none),
        (command "smartlife.iot.common.softaponboarding" "set_stainfo" (stainfo "net" "pw" 3), none)] }) :=
  ⟨.inl ⟨_, rfl, rfl⟩, rfl⟩

/-- Non-vacuity of `C63_legacy_scan`'s condition on entries. -/
example : Plain [("ssid", .str "net"), ("key_type", .num 3)] := by
  refine ⟨?_, by decide +kernel, by decide +kernel⟩
  intro kv hkv
  simp only [List.mem_cons, List.not_mem_nil, or_false] at hkv
  rcases hkv with rfl | rfl <;> simp

/-- C63 fails for entries with a field the library does not know: the scan raises a `TypeError`. -/
theorem C63_scan_new_field :
    (legacyScan scripted { world := [.ok (.obj [("netif", .obj [("get_scaninfo", .obj [("ap_list", .arr [
      .obj [("ssid", .str "net"), ("key_type", .num 3), ("band", .num 5)]])])])])] }).1 = .error (.other "TypeError") := by
  decide +kernel

end Kasa.Names
