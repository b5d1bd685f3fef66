#!/bin/bash
# milestone: build, manifest, commit, vcheck
cd /verif/lean && lake build 2>&1 | grep -A30 "error:" && exit 1
cd .. && python3 tools/props.py && python3 tools/manifest.py && python3 tools/axioms.py && python3 tools/design.py && git add -A && git commit -qm "$1" && vcheck | tail -1
