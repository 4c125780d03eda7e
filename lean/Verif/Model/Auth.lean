/-
Model of `mybin-async/src/auth_plugin.rs` and of the connection phase of `mybin-async/src/conn.rs`: `handshake`
(155-247), `change_user` (356-398), `new_auth_plugin` and `gen_init_auth_resp` (586-620).

The hash functions come from the crate `rust-crypto`; they are parameters (`Hashes`). `result(&mut out)` writes the
digest into a buffer of the digest's size. Log output is left out. Strings are their UTF-8 bytes.
-/
import Verif.Model.Client
import Verif.Model.Command

namespace Mybin

/-- the digests of rust-crypto: `Sha1` and `Sha256` -/
structure Hashes where
  sha1 : Bytes → Bytes
  sha256 : Bytes → Bytes

/-- auth_plugin.rs:80-84 and 186-190: zip and xor -/
def xorBytes (a b : Bytes) : Bytes := List.zipWith (fun x y => x ^^^ y) a b

/-- auth_plugin.rs:56-86 -/
def scramble411 (H : Hashes) (password seed : Bytes) : Bytes :=
  let stage1 := H.sha1 password
  let stage2 := H.sha1 stage1
  let seedHash := H.sha1 (seed ++ stage2)
  xorBytes seedHash stage1

/-- auth_plugin.rs:163-192 -/
def scrambleCachingSha2 (H : Hashes) (password seed : Bytes) : Bytes :=
  let dig1 := H.sha256 password
  let dig2 := H.sha256 dig1
  let scramble1 := H.sha256 (dig2 ++ seed)
  xorBytes dig1 scramble1

/-- auth_plugin.rs:194-200 -/
inductive CachingSha2Stage where
  | sendScramble | readResult | complete | fullAuth
  deriving DecidableEq, Repr

/-- `Box<dyn AuthPlugin>`: auth_plugin.rs:26-28 and 90-96 (`pubkey_requested` is never used) -/
inductive AuthPlugin where
  | native (password : Bytes)
  | cachingSha2 (password seed : Bytes) (stage : CachingSha2Stage) (ssl : Bool)
  deriving DecidableEq, Repr

namespace AuthPlugin

/-- auth_plugin.rs:41-43 and 115-117; the user name is not used -/
def setCredential (password : Bytes) : AuthPlugin → AuthPlugin
  | .native _ => .native password
  | .cachingSha2 _ seed stage ssl => .cachingSha2 password seed stage ssl

/-- auth_plugin.rs:149-159 -/
def fullAuth (password seed : Bytes) (stage : CachingSha2Stage) (ssl : Bool) : Except Err (Bytes × AuthPlugin) :=
  if ssl then .ok (password ++ [0], .cachingSha2 password seed stage ssl)
  else .error .custom

/-- auth_plugin.rs:45-53 and 119-160: the output and the plugin afterwards -/
def next (H : Hashes) (input : Bytes) : AuthPlugin → Except Err (Bytes × AuthPlugin)
  | .native password =>
    if password.isEmpty then .ok ([], .native password)
    else .ok (scramble411 H password input, .native password)
  | .cachingSha2 password seed stage ssl =>
    if password.isEmpty then .ok ([], .cachingSha2 password seed stage ssl)
    else
      match stage with
      | .sendScramble => .ok (scrambleCachingSha2 H password seed, .cachingSha2 password seed .readResult ssl)
      | .readResult =>
        match input with
        | [] => .error .custom
        | b :: _ =>
          if b = 3 then .ok ([], .cachingSha2 password seed .complete ssl)
          else if b = 4 then fullAuth password seed .fullAuth ssl
          else .error .custom
      | stage => fullAuth password seed stage ssl

end AuthPlugin

/-- `"mysql_native_password"` -/
def nativeName : Bytes := "mysql_native_password".toList.map fun c => UInt8.ofNat c.toNat
/-- `"caching_sha2_password"` -/
def cachingSha2Name : Bytes := "caching_sha2_password".toList.map fun c => UInt8.ofNat c.toNat

/-- conn.rs:586-598 -/
def newAuthPlugin (name : Bytes) : Except Err AuthPlugin :=
  if name = nativeName then .ok (.native [])
  else if name = cachingSha2Name then .ok (.cachingSha2 [] [] .sendScramble false)
  else .error .custom

/-- conn.rs:611-615 -/
def stripNul (seed : Bytes) : Bytes := if seed.getLast? = some 0 then seed.dropLast else seed

/-- conn.rs:600-620 -/
def genInitAuthResp (H : Hashes) (plugin : AuthPlugin) (password seed : Bytes) : Except Err (Bytes × AuthPlugin) :=
  (plugin.setCredential password).next H (stripNul seed)

/-- the `?` operator on a plain result -/
def M.ofExcept {α : Type} (r : Except Err α) : M α := fun c =>
  match r with
  | .ok a => .ok a c
  | .error e => .err e c

/-- conn.rs:622-627 -/
structure ConnOpts where
  username : Bytes
  password : Bytes
  database : Bytes
  deriving DecidableEq, Repr

/-- `cap_flags.insert` -/
def insertCap (flag : Nat) : M Unit := fun c => .ok () { c with caps := c.caps ||| flag }
/-- `cap_flags.remove` -/
def removeCap (flag : Nat) : M Unit := fun c => .ok () { c with caps := c.caps ^^^ (c.caps &&& flag) }

/-- the loop of conn.rs:211-245. `caps` is the copy taken in line 210. Every message consumes input, so the `hang`
branch of the length test is never taken. -/
def handshakeLoop (H : Hashes) (caps : Nat) (plugin : AuthPlugin) (c : Conn) : MR Unit :=
  match recvMsg c with
  | .ok msg c1 =>
    match M.parse msg (HandshakeMessage.readFrom caps) c1 with
    | .ok (.ok p) c2 => .ok () { c2 with status := p.statusFlags, pktNr := 0 }
    | .ok (.err _) c2 => .err .packet c2
    | .ok (.switch _) _ => .panic
    | .ok (.moreData m) c2 =>
      match plugin.next H m.pluginData with
      | .error e => .err e c2
      | .ok (resp, plugin') =>
        match (if resp.isEmpty then pure () else sendMsg resp false : M Unit) c2 with
        | .ok _ c3 => if c3.inp.length < c.inp.length then handshakeLoop H caps plugin' c3 else .hang
        | .err e c3 => .err e c3
        | .panic => .panic
        | .hang => .hang
    | .err e c2 => .err e c2
    | .panic => .panic
    | .hang => .hang
  | .err e c1 => .err e c1
  | .panic => .panic
  | .hang => .hang
termination_by c.inp.length

/-- conn.rs:158-247 -/
def handshake (H : Hashes) (opts : ConnOpts) : M Unit := do
  let msg ← recvMsg
  let hs ← M.parse msg InitialHandshake.readFrom
  let seed := hs.authPluginData1 ++ hs.authPluginData2
  insertCap Cap.PLUGIN_AUTH
  insertCap Cap.LONG_PASSWORD
  insertCap Cap.PROTOCOL_41
  insertCap Cap.TRANSACTIONS
  insertCap Cap.MULTI_RESULTS
  insertCap Cap.SECURE_CONNECTION
  insertCap Cap.DEPRECATE_EOF
  insertCap Cap.PLUGIN_AUTH_LENENC_CLIENT_DATA
  removeCap Cap.SSL
  let plugin ← M.ofExcept (newAuthPlugin hs.authPluginName)
  let (authResponse, plugin) ← M.ofExcept (genInitAuthResp H plugin opts.password seed)
  let _ ← (if opts.database.isEmpty then pure () else insertCap Cap.CONNECT_WITH_DB : M Unit)
  let caps ← getCaps
  let resp : HandshakeResponse41 :=
    { capabilityFlags := caps, username := opts.username, authResponse := authResponse,
      database := opts.database, authPluginName := hs.authPluginName }
  sendMsg (resp.writeTo []).1 false
  handshakeLoop H caps plugin

/-- the loop of conn.rs:372-396; `as_mut().unwrap()` panics without a plugin, and the output is sent also when it is
empty -/
def changeUserLoop (H : Hashes) (password : Bytes) (plugin : Option AuthPlugin) (c : Conn) : MR Unit :=
  match recvMsg c with
  | .ok msg c1 =>
    match M.parse msg (ComChangeUserResponse.readFrom c1.caps) c1 with
    | .ok (.ok _) c2 => .ok () c2
    | .ok (.err p) c2 => .err (sqlError p) c2
    | .ok (.switch s) c2 =>
      match newAuthPlugin s.pluginName with
      | .error e => .err e c2
      | .ok pl =>
        match genInitAuthResp H pl password s.authPluginData with
        | .error e => .err e c2
        | .ok (resp, pl') =>
          match sendMsg resp false c2 with
          | .ok _ c3 => if c3.inp.length < c.inp.length then changeUserLoop H password (some pl') c3 else .hang
          | .err e c3 => .err e c3
          | .panic => .panic
          | .hang => .hang
    | .ok (.moreData m) c2 =>
      match plugin with
      | none => .panic
      | some pl =>
        match pl.next H m.pluginData with
        | .error e => .err e c2
        | .ok (resp, pl') =>
          match sendMsg resp false c2 with
          | .ok _ c3 => if c3.inp.length < c.inp.length then changeUserLoop H password (some pl') c3 else .hang
          | .err e c3 => .err e c3
          | .panic => .panic
          | .hang => .hang
    | .err e c2 => .err e c2
    | .panic => .panic
    | .hang => .hang
  | .err e c1 => .err e c1
  | .panic => .panic
  | .hang => .hang
termination_by c.inp.length

/-- conn.rs:357-398 -/
def changeUser (H : Hashes) (username password db : Bytes) (attrs : List ConnectAttr) : M Unit := do
  let caps ← getCaps
  let cmd : ComChangeUser :=
    { user := username, authResponse := [], schemaName := db, authPluginName := nativeName, connectAttrs := attrs }
  sendMsg (cmd.writeTo [] caps).1 true
  changeUserLoop H password none

end Mybin
