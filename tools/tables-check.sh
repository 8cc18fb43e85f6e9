#!/bin/sh
# Renders the tables from the Lean modules and compares them with the files in the repository.
tmp=$(mktemp -d)
cat > "$tmp/Render.lean" <<LEAN
import Verif.Data.Files
open QED.Shipped
def put (name : String) (t : List Char) : IO Unit := IO.FS.writeFile ("$tmp/" ++ name) (String.ofList t)
#eval do
  put "hsokolov.table" hText
  put "ksi_sokolov.table" ksiText
  put "chimin.table" chiMinText
  put "pairprod.table" rateText
  put "e_split.table" splitText
  put "epsilon.table" epsilonText
  put "log_chi.table" logChiText
LEAN
cd /verif/lean && lake build Verif.Data.Files >/dev/null && lake env lean "$tmp/Render.lean"
for f in hsokolov ksi_sokolov chimin pairprod e_split epsilon log_chi; do
  cmp "$tmp/$f.table" "/repo/Tables/$f.table" && echo "$f.table is the same"
done
rm -r "$tmp"
