#!/bin/sh
# Run the model on the test vectors of /repo/tests:  sh run.sh WORKDIR
# (lean/ must have been built; about ten minutes)
set -e
here=$(cd "$(dirname "$0")" && pwd)
mkdir -p "$1"; cd "$1"; work=$(pwd)
python3 "$here/vectors.py"
perl "$here/ucd.pl" > ucd0.txt
python3 "$here/mkucd.py"
cp "$here/driver.txt" Driver.lean
cd "$here/../../lean"
lake env lean --run "$work/Driver.lean" "$work" 0 1000000 > "$work/out.txt"
cd "$work"
python3 "$here/check.py" out.txt
