#!/bin/bash
# quick build of one module with trimmed errors
cd /verif/lean && lake build "$1" 2>&1 | grep -A${2:-18} 'error:' | head -${3:-70}
