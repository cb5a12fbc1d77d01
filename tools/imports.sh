#!/bin/sh
# Regenerates lean/Verif.lean: one import per module under lean/Verif.
cd "$(dirname "$0")/../lean" && find Verif -name '*.lean' | LC_ALL=C sort | sed 's/\.lean$//; s#/#.#g; s/^/import /' > Verif.lean
