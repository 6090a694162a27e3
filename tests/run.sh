#!/bin/sh
# Runs the model on hardware doubles against constants of the repository's tests.  The two files are
# kept as .txt because they are not part of the proof development.
T="$(cd "$(dirname "$0")" && pwd)"; O=/tmp/mcu_tests; mkdir -p $O
cp "$T/FloatInst.lean.txt" $O/FloatInst.lean; cp "$T/FloatCheck.lean.txt" $O/FloatCheck.lean
cd "$T/../lean" && lake build >/dev/null && P="$(lake env printenv LEAN_PATH):$O" && cd $O &&
LEAN_PATH="$P" lean -o $O/FloatInst.olean -i $O/FloatInst.ilean FloatInst.lean &&
LEAN_PATH="$P" lean --run FloatCheck.lean
