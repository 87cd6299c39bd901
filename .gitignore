.lake/
build/
*.olean
tools/__pycache__/
