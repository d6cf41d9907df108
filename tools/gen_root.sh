#!/bin/sh
# Writes lean/Verif.lean: imports every module under lean/Verif.
cd "$(dirname "$0")/../lean" || exit 1
find Verif -name '*.lean' | sort | sed 's|/|.|g; s|\.lean$||; s|^|import |' > Verif.lean
