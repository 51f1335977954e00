{
 "C79": [
  "proved",
  "The other package is represented by a specification of its shares (Spec/Vault.lean); its code is not in /repo and is not modelled."
 ]
}