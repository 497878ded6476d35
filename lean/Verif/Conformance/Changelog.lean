import Verif.Model.Changelog

/-!
# The groups of CHANGELOG.md are those of the model of cliff.toml

Of each message only the first word of its description is kept, and of the histories only the order within each type is
known: the one used here goes through the types in turn. The commits are told by the seven digits of their hashes.
-/

namespace Pemv

/-- The groups with the hashes of their commits, of a history of hashes and messages. -/
def groupedHashes (commits : List (String × String)) : List (Text × List Text) :=
  (groupCommits (commits.map fun c => ⟨c.1.toList, c.2.toList⟩)).map fun g => (g.1, g.2.map HistoryCommit.id)

/-- CHANGELOG.md, version 0.4.2. -/
example : groupedHashes [
      ("95e6104", "misc: Clean")] = List.map (fun g => (g.1.toList, g.2.map String.toList)) [
      ("Miscellaneous Tasks", [
        "95e6104"])] := by
  decide +kernel

/-- CHANGELOG.md, version 0.4.1. -/
example : groupedHashes [
      ("18f8496", "refactor: Apply")] = List.map (fun g => (g.1.toList, g.2.map String.toList)) [
      ("Refactor", [
        "18f8496"])] := by
  decide +kernel

/-- CHANGELOG.md, version 0.4.0. -/
example : groupedHashes [
      ("9e33b67", "test: Add"), ("844fe38", "refactor: Massively"), ("11ccdfa", "misc: Add"),
      ("5364e0c", "feat: The"), ("5b21fe6", "ci: Update"), ("92da197", "fix: Fix"), ("2ab7d33", "test: Add"),
      ("18d1bd0", "refactor: Apply"), ("985d27d", "misc: Update"), ("d11f3a0", "feat: Add"), ("9d2d3be", "fix: Fix"),
      ("7cc5786", "test: Add"), ("0fb9023", "refactor: Run"), ("415bcc8", "misc: Set"), ("f9b74e7", "feat: Add"),
      ("840311d", "fix: Fix"), ("380a661", "test: Add"), ("85024d2", "refactor: Optimise"), ("7640012", "feat: Add"),
      ("5c2ef9b", "fix: Make"), ("07cfe98", "test: Add"), ("df9b085", "refactor: Update"), ("4dfb525", "feat: Add"),
      ("e5e7f64", "feat: Add")] = List.map (fun g => (g.1.toList, g.2.map String.toList)) [
      ("Bug Fixes", [
        "92da197", "9d2d3be", "840311d", "5c2ef9b"]),
      ("Continuous Integration", [
        "5b21fe6"]),
      ("Features", [
        "5364e0c", "d11f3a0", "f9b74e7", "7640012", "4dfb525", "e5e7f64"]),
      ("Miscellaneous Tasks", [
        "11ccdfa", "985d27d", "415bcc8"]),
      ("Refactor", [
        "844fe38", "18d1bd0", "0fb9023", "85024d2", "df9b085"]),
      ("Testing", [
        "9e33b67", "2ab7d33", "7cc5786", "380a661", "07cfe98"])] := by
  decide +kernel

/-- CHANGELOG.md, version 0.3.0. -/
example : groupedHashes [
      ("ee395bc", "test: Add"), ("2ebcf66", "refactor: Refactor"), ("c8533e0", "misc: Update"),
      ("00215fe", "feat: Add"), ("903cb9c", "docs: Put"), ("90d93be", "ci: Add"), ("90c8c66", "fix: Make"),
      ("0fff464", "test: Add"), ("9c7e167", "refactor: Improve"), ("b14db42", "feat: Add"), ("645739f", "docs: Add"),
      ("aeab01d", "ci: Add"), ("c6eb339", "test: Add"), ("9b8affc", "feat: Add"), ("6d809d6", "docs: Remove"),
      ("599cfd0", "feat: Add"), ("2ab055c", "docs: Add"), ("54103a5", "feat: Add"), ("27208d2", "docs: Add"),
      ("34ab63f", "feat: Add"), ("b85192d", "docs: Add"), ("7599d7c", "feat: Add"), ("882a8ff", "feat: Revamp"),
      ("7c48890", "feat: Make"), ("cf47933", "feat: Add"), ("9f38a94", "feat: Add"), ("d7eb0ef", "feat: Make")] = List.map (fun g => (g.1.toList, g.2.map String.toList)) [
      ("Bug Fixes", [
        "90c8c66"]),
      ("Continuous Integration", [
        "90d93be", "aeab01d"]),
      ("Documentation", [
        "903cb9c", "645739f", "6d809d6", "2ab055c", "27208d2", "b85192d"]),
      ("Features", [
        "00215fe", "b14db42", "9b8affc", "599cfd0", "54103a5", "34ab63f", "7599d7c", "882a8ff", "7c48890", "cf47933",
        "9f38a94", "d7eb0ef"]),
      ("Miscellaneous Tasks", [
        "c8533e0"]),
      ("Refactor", [
        "2ebcf66", "9c7e167"]),
      ("Testing", [
        "ee395bc", "0fff464", "c6eb339"])] := by
  decide +kernel

/-- CHANGELOG.md, version 0.2.0. -/
example : groupedHashes [
      ("a60b668", "refactor: Remove"), ("f4c7a68", "feat: Implement"), ("f120e3c", "docs: Fix"),
      ("98b8eee", "fix: Fix"), ("becbcee", "refactor: Move"), ("e91b332", "feat: Display"),
      ("efc8eb4", "docs: Update"), ("4dae539", "refactor: Move"), ("7d37c0f", "feat: Add"), ("1e43e3b", "docs: Fix"),
      ("cb3859a", "refactor: Rename"), ("ddb0534", "feat: Remove"), ("ae3ad6d", "docs: Add"),
      ("82a29e8", "refactor: Move"), ("e30251a", "feat: Make"), ("9196fff", "docs: Change"),
      ("0265419", "feat: Add"), ("baadca1", "feat: Add"), ("eea569a", "feat: Move")] = List.map (fun g => (g.1.toList, g.2.map String.toList)) [
      ("Bug Fixes", [
        "98b8eee"]),
      ("Documentation", [
        "f120e3c", "efc8eb4", "1e43e3b", "ae3ad6d", "9196fff"]),
      ("Features", [
        "f4c7a68", "e91b332", "7d37c0f", "ddb0534", "e30251a", "0265419", "baadca1", "eea569a"]),
      ("Refactor", [
        "a60b668", "becbcee", "4dae539", "cb3859a", "82a29e8"])] := by
  decide +kernel

/-- CHANGELOG.md, version 0.1.4. -/
example : groupedHashes [
      ("48ced22", "refactor: Apply"), ("6d9faa7", "feat: Add"), ("c0a2e8b", "docs: Remove"), ("062aed8", "fix: Fix"),
      ("c44fcc0", "refactor: Rename"), ("1d026fc", "feat: Make"), ("6658249", "docs: Add"),
      ("d3d0031", "refactor: Improve"), ("a85b28c", "feat: Add"), ("83e0b7a", "docs: Add"),
      ("1585efd", "refactor: Rework"), ("fa54c2e", "refactor: Improve")] = List.map (fun g => (g.1.toList, g.2.map String.toList)) [
      ("Bug Fixes", [
        "062aed8"]),
      ("Documentation", [
        "c0a2e8b", "6658249", "83e0b7a"]),
      ("Features", [
        "6d9faa7", "1d026fc", "a85b28c"]),
      ("Refactor", [
        "48ced22", "c44fcc0", "d3d0031", "1585efd", "fa54c2e"])] := by
  decide +kernel

/-- CHANGELOG.md, version 0.1.3. -/
example : groupedHashes [
      ("303243c", "refactor: Fix"), ("46b34e4", "feat: Add"), ("be99a6d", "docs: Add"),
      ("cf0ecfc", "refactor: Move"), ("841eb58", "docs: Add"), ("f2adf0f", "refactor: Rework")] = List.map (fun g => (g.1.toList, g.2.map String.toList)) [
      ("Documentation", [
        "be99a6d", "841eb58"]),
      ("Features", [
        "46b34e4"]),
      ("Refactor", [
        "303243c", "cf0ecfc", "f2adf0f"])] := by
  decide +kernel

/-- CHANGELOG.md, version 0.1.2. -/
example : groupedHashes [
      ("1a0836a", "refactor: Refactor"), ("5833e53", "misc: Update"), ("0650b7e", "feat: Add"),
      ("1c82902", "docs: Add"), ("a5ca029", "ci: Add"), ("a81a8f6", "refactor: Rename"), ("d6dde8d", "feat: Add"),
      ("ae06564", "refactor: Refactor")] = List.map (fun g => (g.1.toList, g.2.map String.toList)) [
      ("Continuous Integration", [
        "a5ca029"]),
      ("Documentation", [
        "1c82902"]),
      ("Features", [
        "0650b7e", "d6dde8d"]),
      ("Miscellaneous Tasks", [
        "5833e53"]),
      ("Refactor", [
        "1a0836a", "a81a8f6", "ae06564"])] := by
  decide +kernel

/-- CHANGELOG.md, version 0.1.1. -/
example : groupedHashes [
      ("f11e579", "refactor: Move"), ("3c8c9ee", "misc: Update"), ("bb49894", "feat: Implement"),
      ("b848e6d", "docs: Update"), ("1a3857e", "ci: Add"), ("5b08c05", "fix: Make"),
      ("77e2a09", "refactor: Refactor"), ("5a06bf5", "feat: Add"), ("708c647", "docs: Update"),
      ("f18e649", "refactor: Apply"), ("a5b51c5", "feat: Add"), ("4ca8932", "feat: Add"), ("e3b9877", "feat: Add"),
      ("69ed380", "feat: Add"), ("14e9746", "feat: Add"), ("b695a00", "feat: Tweak"), ("96fa319", "feat: Add"),
      ("aa18b4c", "feat: Adjust")] = List.map (fun g => (g.1.toList, g.2.map String.toList)) [
      ("Bug Fixes", [
        "5b08c05"]),
      ("Continuous Integration", [
        "1a3857e"]),
      ("Documentation", [
        "b848e6d", "708c647"]),
      ("Features", [
        "bb49894", "5a06bf5", "a5b51c5", "4ca8932", "e3b9877", "69ed380", "14e9746", "b695a00", "96fa319", "aa18b4c"]),
      ("Miscellaneous Tasks", [
        "3c8c9ee"]),
      ("Refactor", [
        "f11e579", "77e2a09", "f18e649"])] := by
  decide +kernel

end Pemv
