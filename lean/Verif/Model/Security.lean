import Verif.Model.MbusData
/-!
# Model of the security part of `src/output.rs`

The crate feature `decryption` is on.
-/
namespace MBus

/-- `SecurityContext`, src/output.rs:386-394. -/
structure SecurityContext where
  encrypted : Bool
  mode : Option SecurityMode
  ellEncrypted : Bool
  decrypted : Bool
  keySupplied : Bool
  decryptedPayload : Option (List UInt8)
  deriving DecidableEq, Repr

/-- The machine-readable codes of `OutputError::Decryption` made by `prepare_security`,
src/output.rs:659-663 and 667-686; `code` is the text of the error's `code` field.  The free text
message is left out, the decryption error it is made of is kept. -/
inductive SecurityError where
  | unsupportedEll
  | decryption (code : List Char) (e : DecryptionError)
  deriving DecidableEq, Repr, Inhabited

/-- `security_fields`, src/output.rs:712-751: encrypted, security mode, protected by the extended link
layer. -/
def securityFields : Option UserDataBlock → Bool × Option SecurityMode × Bool
  | some (.long _ header _) =>
    let mode := header.short.configurationField.securityMode
    (mode != .noEncryption, some mode, false)
  | some (.short ell header _) =>
    let ellEncrypted := ell.any (fun e => e.encryption.isSome)
    let mode := header.configurationField.securityMode
    if ellEncrypted && mode == .noEncryption then (true, none, true)
    else (mode != .noEncryption, some mode, ellEncrypted)
  | _ => (false, none, false)

/-- `decrypt_user_data`, src/output.rs:753-805: the result and the buffer afterwards. -/
def decryptUserData (aes : AesBlock) (userData : UserDataBlock) (wirelessId : Option ManufacturerId)
    (key output : List UInt8) : Res DecryptionError Nat × List UInt8 :=
  match userData with
  | .long _ header _ =>
    match header.manufacturer with
    | .ok manufacturer =>
      match (StaticKeyProvider.new 1).addKey manufacturer.toId
          (UInt32.ofNat header.identificationNumber) key with
      | (.ok (), provider) => userData.decryptVariableData aes provider.getKey output
      | (.err e, _) => (.err e, output)
      | (.panic, _) => (.panic, output)
    | _ => (.err .unknownEncryptionState, output)
  | .short _ header _ =>
    let mode := header.configurationField.securityMode
    if mode = .noEncryption then (.err (.unsupportedMode mode), output)
    else match wirelessId with
      | none => (.err .unknownEncryptionState, output)
      | some id =>
        match (StaticKeyProvider.new 1).addKey id.manufacturerCode.toId
            (UInt32.ofNat id.identificationNumber) key with
        | (.ok (), provider) =>
          userData.decryptVariableDataWithContext aes provider.getKey id.manufacturerCode
            (UInt32.ofNat id.identificationNumber) id.version id.deviceType output
        | (.err e, _) => (.err e, output)
        | (.panic, _) => (.panic, output)
  | _ => (.err .unknownEncryptionState, output)

/-- The error code chosen for a decryption error, src/output.rs:674-680. -/
def securityCode : DecryptionError → List Char
  | .unsupportedMode _ => "security.unsupported_mode".toList
  | .invalidKeyLength => "security.invalid_key".toList
  | _ => "security.decryption_failed".toList

/-- `prepare_security`, src/output.rs:631-710.  The arm for a missing user data block
(`ok_or_else`, line 668) cannot be reached, `security_fields` reports no encryption then; it is
merged with the first arm. -/
def prepareSecurity (aes : AesBlock) (userData : Option UserDataBlock)
    (wirelessId : Option ManufacturerId) (key : Option (List UInt8)) (output : List UInt8) :
    Res SecurityError SecurityContext :=
  let (encrypted, mode, ellEncrypted) := securityFields userData
  match encrypted, userData with
  | false, _ => .ok ⟨false, mode, ellEncrypted, false, key.isSome, none⟩
  | true, none => .ok ⟨false, mode, ellEncrypted, false, key.isSome, none⟩
  | true, some block =>
    match key with
    | none => .ok ⟨encrypted, mode, ellEncrypted, false, false, none⟩
    | some key =>
      if ellEncrypted ∧ mode.isNone then .err .unsupportedEll
      else
        match decryptUserData aes block wirelessId key output with
        | (.ok len, output) =>
          match sliceTo? output len with
          | some decrypted => .ok ⟨encrypted, mode, ellEncrypted, true, true, some decrypted⟩
          | none => .err (.decryption "security.decryption_failed".toList .decryptionFailed)
        | (.err e, _) => .err (.decryption (securityCode e) e)
        | (.panic, _) => .panic

/-- `decrypted_records`, src/output.rs:807-825. -/
def decryptedRecords (block : Option UserDataBlock) (decrypted : List UInt8) : Option DataRecords :=
  match block with
  | some (.long _ header _) => some (DataRecords.new decrypted header.lsbOrder)
  | some (.short ..) => some (DataRecords.new decrypted false)
  | some (.noTpl ..) => some (DataRecords.new decrypted false)
  | _ => none

end MBus
